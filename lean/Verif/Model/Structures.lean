import Verif.Model.Constants
import Verif.Model.Tables.Nucdata

/-!
# Projectile, Target, Material, Layers, Config, Result

`/repo/include/catima/structures.h`, `/repo/src/structures.cpp`,
`/repo/include/catima/config.h`, `/repo/include/catima/nucdata.h`.

C++ setters that return `*this` are modelled as functions returning the new value.
-/

namespace Catima
variable {α : Type} [Scalar α]

/-! ## Element data -/

/-- nucdata.h:27-29 -/
def element_atomic_weight (z : Int) : α :=
  if z > 0 ∧ z < 110 then
    match element_atomic_weights[z.toNat]? with
    | some d => d.toScalar
    | none => 0.0   -- not reached: the table has 110 entries
  else 0.0

/-- nucdata.h:31-33 -/
def element_density (z : Int) : α :=
  if z > 0 ∧ z < 99 then
    match element_densities[z.toNat]? with
    | some d => d.toScalar
    | none => 0.0   -- not reached: the table has 99 entries
  else 0.0

/-! ## Projectile -/

/-- structures.h:36-40 -/
structure Projectile (α : Type) where
  A : α
  Z : α
  Q : α
  T : α

/-- structures.h:47: `Projectile(a,z,q=0,t=0)`; `q == 0` means fully stripped. -/
def Projectile.new (a z : α) (q : α := 0.0) (t : α := 0.0) : Projectile α :=
  ⟨a, z, if q =? 0.0 then z else q, t⟩

/-- structures.h:49: `Projectile() = default`. -/
def Projectile.default : Projectile α := ⟨0.0, 0.0, 0.0, 0.0⟩

/-- structures.h:48: `operator()(double e)` sets the energy. -/
def Projectile.withT (p : Projectile α) (e : α) : Projectile α := { p with T := e }

/-- structures.cpp:9-15: the energy is not compared. -/
def Projectile.eq (a b : Projectile α) : Bool :=
  (a.A =? b.A) && (a.Z =? b.Z) && (a.Q =? b.Q)

/-! ## Target and Material -/

/-- structures.h:58-62 -/
structure Target (α : Type) where
  A : α
  Z : Int
  stn : α

/-- structures.h:70-76 (the private data members) -/
structure Material (α : Type) where
  rho : α
  th : α
  molar_mass : α
  i_potential : α
  atoms : List (Target α)

namespace Material

/-- structures.h:72-76,79: `Material(){}` -/
def default : Material α := ⟨1.0e-5, 0.0, 0.0, 0.0, []⟩

/-- structures.h:137 -/
def ncomponents (m : Material α) : Nat := m.atoms.length

/-- structures.h:120; an index outside the vector is undefined behaviour. -/
def get_element (m : Material α) (i : Int) : M (Target α) := rd m.atoms i

/-- The weight fraction expression of structures.h:126 for a component `t`. -/
def wfrac (m : Material α) (t : Target α) : α :=
  if t.stn <? 1.0 then t.stn else t.stn * t.A / m.molar_mass

/-- structures.h:126 -/
def weight_fraction (m : Material α) (i : Int) : M α := (rd m.atoms i).map m.wfrac

/-- The molar fraction expression of structures.h:132 for a component `t`. -/
def mfrac (m : Material α) (t : Target α) : α :=
  if t.stn <? 1.0 then t.stn * m.molar_mass / t.A else t.stn

/-- structures.h:132 -/
def molar_fraction (m : Material α) (i : Int) : M α := (rd m.atoms i).map m.mfrac

/-- structures.h:167 -/
def thickness_cm (m : Material α) : α := m.th / m.rho

/-- structures.h:157 -/
def set_density (m : Material α) (v : α) : Material α := { m with rho := v }
/-- structures.h:172 -/
def set_thickness (m : Material α) (v : α) : Material α := { m with th := v }
/-- structures.h:177: uses the current density. -/
def set_thickness_cm (m : Material α) (l : α) : Material α := { m with th := m.rho * l }
/-- structures.h:182 -/
def set_I (m : Material α) (v : α) : Material α := { m with i_potential := v }
/-- structures.h:147 -/
def set_M (m : Material α) (v : α) : Material α := { m with molar_mass := v }

/-- structures.h:193-195 -/
def number_density (m : Material α) : α := Avogadro * m.rho / m.molar_mass

/-- structures.h:200-203.  `i >= atoms.size()` compares after converting `i` to an
unsigned type, so a negative `i` also returns 0. -/
def number_density_i (m : Material α) (i : Int) : M α :=
  if i < 0 ∨ i ≥ m.atoms.length then .ok 0.0
  else do return m.number_density * (← m.molar_fraction i)

/-- structures.h:208-210 -/
def number_density_cm2 (m : Material α) : α := Avogadro * m.th / m.molar_mass

/-- structures.h:215-218 -/
def number_density_cm2_i (m : Material α) (i : Int) : M α :=
  if i < 0 ∨ i ≥ m.atoms.length then .ok 0.0
  else do return m.number_density_cm2 * (← m.molar_fraction i)

/-- structures.cpp:50-54 -/
def add_element (m : Material α) (a : α) (z : Int) (stn : α) : Material α :=
  let a' := if a >? 0.0 then a else element_atomic_weight z
  { m with atoms := m.atoms ++ [⟨a', z, stn⟩], molar_mass := m.molar_mass + stn * a' }

/-- structures.cpp:56-64 -/
def calculate (m : Material α) : Material α :=
  if m.atoms.all (fun t => t.stn <? 1.0) then
    { m with molar_mass := 1.0 / m.atoms.foldl (fun s e => s + e.stn / e.A) 0.0 }
  else m

/-- structures.cpp:31-44 (`list` entries are `{a, z, stn}`).  Simplification: the
implicit conversion of the middle entry from `double` to `int` is done by the
caller, i.e. `z` is given as an integer. -/
def ofList (list : List (α × Int × α)) (density : α := 1.0e-5) (ipot : α := 0.0)
    (mass : α := 0.0) : Material α :=
  let m : Material α := ⟨density, 0.0, 0.0, ipot, []⟩
  let m := list.foldl (fun m e => m.add_element e.1 e.2.1 e.2.2) m
  if !(mass =? 0.0) then { m with molar_mass := mass } else m.calculate

/-- structures.cpp:46-48 -/
def ofElement (a : α) (z : Int) (rho : α := 1.0e-5) (th : α := 0.0) (ipot : α := 0.0) :
    Material α :=
  add_element ⟨rho, th, 0.0, ipot, []⟩ a z 1.0

/-- structures.cpp:22-24: the comparison of one pair of components. -/
def atomEq (a b : Target α) : Bool :=
  (a.stn =? b.stn) && (a.A =? b.A) && (a.Z == b.Z)

/-- structures.cpp:17-28.  The loop over `i` is the `zip` of the two component vectors
(equal lengths have been checked before it is reached). -/
def eq (a b : Material α) : Bool :=
  !(Scalar.fabs (a.rho - b.rho) >? 1.0e-6) &&
  a.atoms.length == b.atoms.length &&
  (a.i_potential =? b.i_potential) &&
  (a.atoms.zip b.atoms).all (fun x => atomEq x.1 x.2) &&
  (a.molar_mass =? b.molar_mass)

end Material

/-! ## Layers -/

/-- structures.h:266-268 -/
structure Layers (α : Type) where
  materials : List (Material α)

namespace Layers

/-- structures.h:270 -/
def empty : Layers α := ⟨[]⟩

/-- structures.cpp:66-68 -/
def add (l : Layers α) (m : Material α) : Layers α := ⟨l.materials ++ [m]⟩

/-- structures.h:292 -/
def num (l : Layers α) : Nat := l.materials.length

/-- An iterator into a `std::vector`: its offset and whether it is still valid. -/
structure Iter where
  pos : Nat
  valid : Bool

/-- The range-`for` of `Layers::add(const Layers&)`, structures.cpp:70-74, with its two
hidden iterators `it` and `en` explicit.  `src` is the vector iterated over, `dst` the
vector pushed to, `cap` the capacity of `dst`, and `self` tells whether the two are the same
object.  Each turn compares `it != en` (which needs both iterators valid), copies `*it`,
and calls `push_back`.  When `src` is the pushed-to vector, `push_back` invalidates the
end iterator, and every iterator if it has to reallocate ([vector.modifiers]).
`fuel` bounds the recursion; `addLayersGen` supplies enough. -/
def addLoop (self : Bool) : Nat → List (Material α) → List (Material α) → Nat → Iter → Iter →
    M (List (Material α))
  | 0, _, dst, _, _, _ => .ok dst
  | fuel + 1, src, dst, cap, it, en =>
    if !(it.valid && en.valid) then .error .invalidated
    else if it.pos = en.pos then .ok dst
    else match src[it.pos]? with
      | none => .error .outOfBounds
      | some m =>
        let realloc := decide (dst.length ≥ cap)
        let dst' := dst ++ [m]
        addLoop self fuel (if self then dst' else src) dst' (if realloc then 2 * cap + 1 else cap)
          ⟨it.pos + 1, it.valid && !(self && realloc)⟩ ⟨en.pos, en.valid && !self⟩

/-- structures.cpp:70-74: `l.add(r)`; `self` when `r` is `l` itself. -/
def addLayersGen (self : Bool) (cap : Nat) (l r : Layers α) : M (Layers α) :=
  (addLoop self (r.materials.length + 1) r.materials l.materials cap ⟨0, true⟩
    ⟨r.materials.length, true⟩).map Layers.mk

/-- structures.cpp:76-82 -/
def thickness (l : Layers α) : α := l.materials.foldl (fun s m => s + m.th) 0.0

/-- structures.cpp:84-90 -/
def thickness_cm (l : Layers α) : α := l.materials.foldl (fun s m => s + m.thickness_cm) 0.0

/-- structures.cpp:92-102 -/
def plus (a b : Layers α) : Layers α :=
  b.materials.foldl add (a.materials.foldl add empty)

/-- structures.cpp:104-111 -/
def plusMaterial (a : Layers α) (m : Material α) : Layers α :=
  add (a.materials.foldl add empty) m

end Layers

/-! ## Config -/

/-- config.h:61-73.  `unsigned char` fields are natural numbers. Build without `GLOBAL`. -/
structure Config (α : Type) where
  z_effective : Nat
  corrections : Nat
  calculation : Nat
  low_energy : Nat
  scattering : Nat
  scattering_factor : α

/-- config.h:63-72 member initialisers. -/
def Config.default : Config α := ⟨1, 0, 1, 0, 255, 1.0⟩

/-- config.h:51-56 -/
def scattering_fermi_rossi : Nat := 0
/-- config.h:51-56 -/
def scattering_dhighland : Nat := 1
/-- config.h:51-56 -/
def scattering_gottschalk : Nat := 2
/-- config.h:51-56 -/
def scattering_atima : Nat := 255

/-- catima.cpp:20-28 -/
def Config.eq (a b : Config α) : Bool :=
  a.scattering == b.scattering && a.z_effective == b.z_effective &&
  a.corrections == b.corrections && a.calculation == b.calculation &&
  a.low_energy == b.low_energy &&
  !(Scalar.fabs (a.scattering_factor - b.scattering_factor) >? 1.0e-3)

/-! ## Results -/

/-- structures.h:228-244 (build with `REACTIONS`). -/
structure Result (α : Type) where
  Ein : α
  Eout : α
  Eloss : α
  range : α
  dEdxi : α
  dEdxo : α
  sigma_E : α
  sigma_a : α
  sigma_r : α
  sigma_x : α
  cov : α
  tof : α
  sp : α

/-- structures.h:229-243 member initialisers. -/
def Result.init : Result α := ⟨0.0, 0.0, 0.0, 0.0, 0.0, 0.0, 0.0, 0.0, 0.0, 0.0, 0.0, 0.0, 1.0⟩

/-- structures.h:246-250 -/
structure Phasespace (α : Type) where
  sigma_x : α
  sigma_a : α
  cov_x : α

/-- structures.h:247-249 member initialisers. -/
def Phasespace.init : Phasespace α := ⟨0.0, 0.0, 0.0⟩

/-- structures.h:255-258 -/
structure MultiResult (α : Type) where
  results : List (Result α)
  total_result : Result α

end Catima
