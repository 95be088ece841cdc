import Verif.Model.Base

/-!
# Arrays as mutable objects

The other modules treat arrays as values. Here every array is a cell of a heap, and `BaseEntity.step` and the `state` property are
modelled statement by statement: which statement allocates, which one writes in place, and which one only passes a reference on.
A view (`sol.y[:, -1]`) is modelled as a reference to the cell it looks into.
-/

namespace SAD

/-- the address of an array -/
macro "Addr" : term => `(Nat)

/-- the heap of arrays; an address is an index -/
structure Heap {K : Type} (R : Fmt K) where
  cells : List (Vec R)

/-- an entity with references to its arrays: `_state`, `state_dot`, `control_default`, and the rows of `dynamics.trajectory` -/
structure HEntity {K : Type} (R : Fmt K) where
  name : String
  dynamics : Dyn R
  controlMin : Arr R
  controlMax : Arr R
  controlMap : Option (List (String × Nat))
  stateRef : Addr
  stateDotRef : Addr
  controlDefaultRef : Addr
  trajectoryRefs : Option (List Addr)

/-- the program state: heap, one entity, and the references the user's code has obtained -/
structure World {K : Type} (R : Fmt K) where
  heap : Heap R
  entity : HEntity R
  held : List Addr

/-- an action as passed by the user: an ndarray is one of the user's arrays -/
inductive HAction {K : Type} (R : Fmt K) where
  | none
  | dict (items : List (String × Fl R))
  | list (xs : Vec R)
  | ndarray (ty : DType) (a : Addr)
  | jaxArray (a : Addr)
  | other

section
variable {K : Type} {R : Fmt K}

/-- a new array object, as made by `.copy()`, `np.array`, `np.clip`, … (base_models.py:168, 173, 184-188, 195, 209, 213) -/
def Heap.alloc (h : Heap R) (v : Vec R) : Heap R × Addr := (⟨h.cells ++ [v]⟩, h.cells.length)
/-- the contents of an array -/
def Heap.read (h : Heap R) (a : Addr) : Vec R := h.cells.getD a []
/-- `arr[...] = v` in place (base_models.py:182, dubins.py:338-339) -/
def Heap.write (h : Heap R) (a : Addr) (v : Vec R) : Heap R := ⟨h.cells.set a v⟩
/-- `arr.copy()` (base_models.py:168, 173, 186, 188, 209, 213) -/
def Heap.copy (h : Heap R) (a : Addr) : Heap R × Addr := h.alloc (h.read a)

/-- the rows of a new two-dimensional array (`sol.y.T`, base_models.py:575-576) -/
def Heap.allocs (h : Heap R) : List (Vec R) → Heap R × List Addr
  | [] => (h, [])
  | v :: vs =>
    match h.alloc v with
    | (h, a) =>
      match h.allocs vs with
      | (h, as) => (h, a :: as)

/-- `control[self.control_map[action_name]] = action_value`, in place, for every item (base_models.py:175-182) -/
def applyDictH (map : List (String × Nat)) : List (String × Fl R) → Heap R → Addr → Heap R × Py Unit
  | [], h, _ => (h, .ok ())
  | (name, value) :: rest, h, control =>
    match lookup map name with
    | none => (h, .error .keyError)
    | some i =>
      match setIdx (h.read control) i value with
      | .error x => (h, .error x)
      | .ok v => applyDictH map rest (h.write control v) control

variable [Field K] [LinearOrder K] [FloorRing K]

/-- the `control` array of `step` (base_models.py:166-190): a copy of the default, of the action array, or a new array -/
def controlH (env : Env R) (e : HEntity R) (h : Heap R) : HAction R → Heap R × Py (DType × Addr)
  | .none =>
    match h.copy e.controlDefaultRef with
    | (h, c) => (h, .ok (.f64, c))
  | .dict items =>
    match e.controlMap with
    | none => (h, .error .assertionError)
    | some m =>
      match h.copy e.controlDefaultRef with
      | (h, c) =>
        match applyDictH m items h c with
        | (h, .error x) => (h, .error x)
        | (h, .ok ()) => (h, .ok (.f64, c))
  | .list xs =>
    match h.alloc (xs.map Fl.cast32) with
    | (h, c) => (h, .ok (.f32, c))
  | .ndarray ty a =>
    match h.copy a with
    | (h, c) => (h, .ok (ty, c))
  | .jaxArray a =>
    if env.jaxInstalled then
      match h.copy a with
      | (h, c) => (h, .ok (.f32, c))
    else (h, .error .valueError)
  | .other => (h, .error .valueError)

/-- the arrays made by `_step` (base_models.py:565-598): the dynamics object keeps the rows of `sol.y.T` (`trajectoryRefs`), and
`next_state` is a view of the last of them (base_models.py:575-578). The other methods store nothing: `d.trajectory` is `none`. -/
def storeTrajectory (e : HEntity R) (h : Heap R) (d : Dyn R) : Heap R × HEntity R × Option Addr :=
  match d.trajectory with
  | some rows =>
    match h.allocs rows with
    | (h, refs) => (h, { e with dynamics := d, trajectoryRefs := some refs }, refs.getLast?)
  | none => (h, { e with dynamics := d }, none)

/-- `next_state` (base_models.py:574-598): the view of the last row, or a new array -/
def nextState (h : Heap R) (view : Option Addr) (next : Vec R) : Heap R × Addr :=
  match view with
  | some a => (h, a)
  | none => h.alloc next

/-- the rest of `BaseDynamics.step` (base_models.py:452-455): `next_state` is the view, or new; `state_dot` is new; `np.clip`
allocates; `_wrap_angles` allocates (`np.where`) or returns its argument (base_models.py:457-467) -/
def finishStep (dyn : Dyn R) (h : Heap R) (view : Option Addr) (next sd : Vec R) : Heap R × Py (Addr × Addr) :=
  match nextState h view next with
  | (h, nextRef) =>
    match h.alloc sd with
    | (h, sdRef) =>
      match npClip (h.read nextRef) dyn.stateMin dyn.stateMax with
      | .error x => (h, .error x)
      | .ok clipped =>
        match h.alloc clipped with
        | (h, clippedRef) =>
          match dyn.angleWrapCenters with
          | none => (h, .ok (clippedRef, sdRef))
          | some _ =>
            match dyn.wrapAngles (h.read clippedRef) with
            | .error x => (h, .error x)
            | .ok wrapped =>
              match h.alloc wrapped with
              | (h, wrappedRef) => (h, .ok (wrappedRef, sdRef))

/-- `BaseDynamics.step` (base_models.py:434-455) on references. The solver and the right-hand sides do not write to the arrays
they are given. The field `trajectory` of `Dyn` only carries the rows of this call. -/
def dynStepH (env : Env R) (e : HEntity R) (h : Heap R) (dt : Fl R) (state control : Addr) : Heap R × HEntity R × Py (Addr × Addr) :=
  match Dyn.rawStep env { e.dynamics with trajectory := none } dt (h.read state) (h.read control) with
  | (d, r) =>
    match storeTrajectory e h d with
    | (h, e', view) =>
      match r with
      | .error x => (h, e', .error x)
      | .ok (next, sd) =>
        match finishStep e.dynamics h view next sd with
        | (h, r) => (h, e', r)

/-- `BaseEntity.step` (base_models.py:147-197) -/
def World.step (env : Env R) (w : World R) (dt : Fl R) (a : HAction R) : World R × Py Unit :=
  match controlH env w.entity w.heap a with
  | (h, .error x) => ({ w with heap := h }, .error x)
  | (h, .ok (ty, c)) =>
    let lo := w.entity.controlMin.forDType ty
    let hi := w.entity.controlMax.forDType ty
    match exceeds (h.read c) lo hi with
    | .error x => ({ w with heap := h }, .error x)
    | .ok _ =>
      match npClip (h.read c) lo hi with
      | .error x => ({ w with heap := h }, .error x)
      | .ok v =>
        match h.alloc v with
        | (h, c) =>
          -- `self.state`: the property returns a copy
          match h.copy w.entity.stateRef with
          | (h, s) =>
            match dynStepH env w.entity h dt s c with
            | (h, e, .error x) => ({ w with heap := h, entity := e }, .error x)
            | (h, e, .ok (next, sd)) =>
              -- `self.state = …`: the setter stores a copy; `self.state_dot = …` stores the reference
              match h.copy next with
              | (h, s) => ({ w with heap := h, entity := { e with stateRef := s, stateDotRef := sd } }, .ok ())

/-- `BaseEntity.__init__` (base_models.py:124-139): `_build_state` and `np.zeros_like` make new arrays, and so do the constructors of
all entities for `control_default` (e.g. point_model.py:114, integrators.py:123, dubins.py:298, sixdof_model.py:190). The user's code
holds no reference yet. -/
def World.new (e : Entity R) : World R where
  heap := ⟨[e.state, e.stateDot, e.controlDefault]⟩
  entity :=
    { name := e.name, dynamics := e.dynamics, controlMin := e.controlMin, controlMax := e.controlMax, controlMap := e.controlMap, stateRef := 0,
      stateDotRef := 1, controlDefaultRef := 2, trajectoryRefs := none }
  held := []

/-- What the user's code can do. Arrays are named by their addresses; using an array that the user does not hold does nothing. -/
inductive UOp {K : Type} (R : Fmt K) where
  /-- create an array -/
  | create (v : Vec R)
  /-- `s = entity.state` (base_models.py:199-209) -/
  | getState
  /-- `p = entity.position` and the like: `self._state[i:j].copy()` (integrators.py:264, 269, 365, 370, point_model.py:184, 203,
  dubins.py:638) -/
  | getPart (i j : Nat)
  /-- `d = entity.state_dot` -/
  | getStateDot
  /-- `t = entity.dynamics.trajectory[i]` -/
  | getTrajectory (i : Nat)
  /-- `c = entity.control_default` -/
  | getControlDefault
  /-- `arr[...] = v` for an array the user holds -/
  | write (a : Addr) (v : Vec R)
  /-- `entity.state = arr` (base_models.py:211-213) -/
  | assign (a : Addr)
  /-- an element setter such as `aircraft.heading = x` (dubins.py:357-359), which writes into `_state` -/
  | setElem (i : Nat) (x : Fl R)
  /-- `entity.step(dt, action)` -/
  | step (dt : Fl R) (a : HAction R)

/-- the user holds the array they pass (base_models.py:147: `action` comes from the caller) -/
def HAction.held (held : List Addr) : HAction R → Bool
  | .ndarray _ a => decide (a ∈ held)
  | .jaxArray a => decide (a ∈ held)
  | _ => true

/-- one operation of the user's code (base_models.py:147-213) -/
def World.op (env : Env R) (w : World R) : UOp R → World R
  | .create v =>
    match w.heap.alloc v with
    | (h, a) => { w with heap := h, held := a :: w.held }
  | .getState =>
    match w.heap.copy w.entity.stateRef with
    | (h, a) => { w with heap := h, held := a :: w.held }
  | .getPart i j =>
    match w.heap.alloc (((w.heap.read w.entity.stateRef).take j).drop i) with
    | (h, a) => { w with heap := h, held := a :: w.held }
  | .getStateDot => { w with held := w.entity.stateDotRef :: w.held }
  | .getTrajectory i =>
    match (w.entity.trajectoryRefs.getD [])[i]? with
    | some a => { w with held := a :: w.held }
    | none => w
  | .getControlDefault => { w with held := w.entity.controlDefaultRef :: w.held }
  | .write a v => if a ∈ w.held then { w with heap := w.heap.write a v } else w
  | .assign a =>
    if a ∈ w.held then
      match w.heap.copy a with
      | (h, s) => { w with heap := h, entity := { w.entity with stateRef := s } }
    else w
  | .setElem i x => { w with heap := w.heap.write w.entity.stateRef ((w.heap.read w.entity.stateRef).set i x) }
  | .step dt a => if a.held w.held then (w.step env dt a).1 else w

/-- a program of the user's code (base_models.py:147-213) -/
def World.run (env : Env R) (w : World R) (ops : List (UOp R)) : World R := ops.foldl (World.op env) w

end
end SAD
