# Running the model on the project's own test data

This is a check of the model, not part of the proofs. Nothing here is imported by `lean/Verif`.

`gen.py` reads the YAML test cases in `/repo/test/test_cases` and writes one `#eval` per case. `prelude.txt` is put in front of
them and the file is run with `lake env lean` in `lean/`. The format is `b64Of libm`: binary64 arithmetic of the model, binary32
casts of the model, and a libm that calls Lean's `Float` functions. The solver is the model's Dormand-Prince chain with a fixed
number of equal substeps per step.

| Test file | Cases | Agree |
|---|---|---|
| `CWHSpacecraft_test_cases.yaml` | 23 | 23 |
| `CWHRotation2dSpacecraft_test_cases.yaml` | 36 | 36 |
| `SixDOFSpacecraft_test_cases.yaml` | 22 | 22 |
| `Dubins2dAircraft_test_cases.yaml` | 33 | 33 |
| `Dubins3dAircraft_test_cases.yaml` | 56 | 56 |
| `compare_entities_test_cases.yaml` | 28 | 28 |

* Tolerances are those of the test files.
* The first run used 3 substeps. 18 cases that end on a state limit were outside the tolerance: a fixed step overshoots the
  limit, where the adaptive solver shortens its step. All 18 agree with 50 substeps.
* The equality tests store `init_state` as float32 (`test_compare_entities.py`), so the runner casts it.
* The six cases of `entity_relative_metrics.yaml` were not run.
* F-16: at the equilibrium of `low_level_controller.py:48-49`, the model's `subf16` with the `stevens` tables gives
  `xd = [-6.0e-4, -2.5e-5, 0, 0, 0, 0, 0, 2.4e-5, 0, 502, 0, 0, 2.4e-3]`, zero to the precision of the printed equilibrium.
  With the `morelli` polynomials the same point is not an equilibrium: `vt' = 0.33`, `q' = -0.19`.
