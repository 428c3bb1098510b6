import Verif.Model.Calculator
import Verif.Model.CWrapper
open Catima
abbrev F := Float
def env : Env F := .default
def sh (n : String) (x : M F) (e : F) : IO Unit := IO.println s!"{n}: {match x with | .ok v => toString v | .error f => reprStr f}  expected {e}"
def carbon : Material F := get_material 6
def shA {β} (n : String) (x : Api F β) (f : β → String) : StateT (World F) IO Unit := fun w =>
  match x w with
  | .ok (v,w') => do IO.println s!"{n}: {f v}"; return ((),w')
  | .error e => do IO.println s!"{n}: {reprStr e}"; return ((),w)
def prj (a z q t : F) : Projectile F := .new a z q t
def showR (r : Result F) : String := s!"Ein {r.Ein} Eout {r.Eout} Eloss {r.Eloss} range {r.range} dEdxi {r.dEdxi} dEdxo {r.dEdxo} sE {r.sigma_E} sa {r.sigma_a} sr {r.sigma_r} sx {r.sigma_x} cov {r.cov} tof {r.tof} sp {r.sp}"
def water : Material F := .ofList [(1.00794,1,2),(15.9994,8,1)]
def go : StateT (World F) IO Unit := do
  let c : Config F := .default
  let g : Material F := (Material.ofList [(12.011,6,1)]).set_density 2.0
  shA "C->graphite 1000 th .5 (997.07)" (calculate env (prj 12 6 6 1000) (((Material.default : Material F).add_element 12 6 1).set_density 2.0 |>.set_thickness 0.5) c) showR
  shA "U dedx 1000" (calculate env (prj 238 92 92 1000) g c) showR
  let cu : Material F := get_material 29
  shA "cu 0.02963 (7.2)" (calculate env (prj 1 1 1 158.6) (cu.set_thickness_cm 0.02963) c) showR
  shA "cu 0.2963 (23.5)" (calculate env (prj 1 1 1 158.6) (cu.set_thickness_cm 0.2963) c) showR
  let w := water.set_density 1.0
  shA "w 9.6 sx (0.1)" (calculate env (prj 1 1 1 215) (w.set_thickness_cm 9.6) c) showR
  shA "w 29.4 sx (0.66)" (calculate env (prj 1 1 1 215) (w.set_thickness_cm 29.4) c) showR
  shA "w 2x8.5 sx (0.25)" (calculate_layers_nops env (prj 1 1 1 215) ⟨[w.set_thickness_cm 9.6, w.set_thickness_cm 7.4]⟩ c) (fun r => showR r.total_result)
  shA "nonreact .92" (nonreaction_rate env (prj 12 6 6 870) ((get_material 6).set_thickness 2.0) c) toString
def main : IO Unit := do
  let carb : Target F := ⟨12.0107,6,1⟩
  let p : Projectile F := prj 4.00151 2 2 1
  sh "dedxn" (dedx_n_target false (p.withT (0.1/4.00151)) carb) 14.27
  sh "dedxn" (dedx_n_target false (p.withT (10/4.00151)) carb) 0.2874
  sh "p->He 1" (sezi_dedx_e (prj 1 1 1 1) (get_material 2) .default) 283
  sh "p->He 30" (sezi_dedx_e (prj 1 1 1 30) (get_material 2) .default) 18.38
  sh "p->C 10" (sezi_dedx_e (prj 1 1 1 10) (get_material 6) .default) 40.8
  sh "He->C 1" (do return (← sezi_dedx_e (prj 4 2 2 1) carbon .default) + (← dedx_n false (prj 4 2 2 1) carbon)) 922.06
  sh "He->C 3" (do return (← sezi_dedx_e (prj 4 2 2 3) carbon .default) + (← dedx_n false (prj 4 2 2 3) carbon)) 433.09
  sh "C->C 1" (do return (← sezi_dedx_e (prj 12 6 2 1) carbon .default) + (← dedx_n false (prj 12 6 2 1) carbon)) 5792.52
  sh "C->C 9.9" (do return (← sezi_dedx_e (prj 12 6 2 9.9) carbon .default) + (← dedx_n false (prj 12 6 2 9.9) carbon)) 1485.36
  sh "LS" (precalculated_lindhard true (prj 238 92 92 380.9932)) 0.549199
  sh "LS" (precalculated_lindhard true (prj 238 92 92 37277.695445)) 0.689662
  sh "LSX" (precalculated_lindhard_X true (prj 238 92 92 380.9932)) 1.836008
  sh "pair" (.ok (pair_production (prj 238 92 0 1e6) ⟨27,13,0⟩)) 1900
  sh "brem" (.ok (bremsstrahlung (prj 238 92 0 1e6) ⟨27,13,0⟩)) 170
  sh "water 1000" (dedx env (prj 1 1 1 1000) water .default) 2.23
  sh "water 500" (dedx env (prj 1 1 1 500) water .default) 2.76
  sh "water 9" (dedx env (prj 1 1 1 9) water .default) 51.17
  sh "U g 1000" (dedx env (prj 238 92 92 1000) (.ofList [(12.011,6,1)]) .default) 0
  sh "be xs/x0" (do return (← scattering_length (get_material 4))/ radiation_length (get_material 4)) 1.4
  discard <| go.run .init
