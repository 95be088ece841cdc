import Verif.Model.Aero
import Verif.Spec.Tables

/-! # C59, C64: the data of the tables -/

namespace SAD.Aero
open SAD Spec

/-- C59: the aerodynamic tables hold the data of the source. -/
theorem C59_data :
    cxTable = cxData.map (fun r => r.map (fun x => ((x : ℚ) / 1000))) ∧
    cmTable = cmData.map (fun r => r.map (fun x => ((x : ℚ) / 1000))) ∧
    czTable = czData.map (fun x => ((x : ℚ) / 1000)) ∧
    clTable = clData.map (fun r => r.map (fun x => ((x : ℚ) / 1000))) ∧
    cnTable = cnData.map (fun r => r.map (fun x => ((x : ℚ) / 1000))) ∧
    dldaTable = dldaData.map (fun r => r.map (fun x => ((x : ℚ) / 1000))) ∧
    dldrTable = dldrData.map (fun r => r.map (fun x => ((x : ℚ) / 1000))) ∧
    dndaTable = dndaData.map (fun r => r.map (fun x => ((x : ℚ) / 1000))) ∧
    dndrTable = dndrData.map (fun r => r.map (fun x => ((x : ℚ) / 1000))) ∧
    damppTable = damppData.map (fun r => r.map (fun x => ((x : ℚ) / 1000))) := by
  decide +kernel

/-- C64: the thrust tables hold the data of the source. -/
theorem C64_data :
    thrustIdle = idleData.map (fun r => r.map (fun x => (x : ℚ))) ∧
    thrustMil = milData.map (fun r => r.map (fun x => (x : ℚ))) ∧
    thrustMax = maxData.map (fun r => r.map (fun x => (x : ℚ))) := by
  decide +kernel

end SAD.Aero
