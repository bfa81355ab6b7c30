import Verif.XS.Tables
import Verif.Tools.Grid

/-!
# `NeutrinoDISCrossSectionsFromTables_V1` (include/nuSQuIDS/xsections.h 132-246, src/xsections.cpp 588-847)

Doubles are real numbers; rounding is not modelled. A logarithm of a number that is not positive, a quotient by zero and a conversion to `size_t`
of a number outside its range end with `ub`.
-/

namespace Verif.XS

/-- A `marray<double,3>`: extents and cells. -/
structure T3 where
  n0 : Nat
  n1 : Nat
  n2 : Nat
  at_ : Nat → Nat → Nat → ℝ

/-- `t[i][j][k]`. The C++ does not check; an index beyond its own extent is `ub` here, also where the flat position still is inside the array. -/
noncomputable def T3.get (t : T3) (i j k : Nat) : Outcome ℝ := if i < t.n0 ∧ j < t.n1 ∧ k < t.n2 then .ok (t.at_ i j k) else .ub

/-- A `marray<double,4>`. -/
structure T4 where
  n0 : Nat
  n1 : Nat
  n2 : Nat
  n3 : Nat
  at_ : Nat → Nat → Nat → Nat → ℝ

/-- `t[i][j][k][l]`. -/
noncomputable def T4.get (t : T4) (i j k l : Nat) : Outcome ℝ :=
  if i < t.n0 ∧ j < t.n1 ∧ k < t.n2 ∧ l < t.n3 then .ok (t.at_ i j k l) else .ub

/-- The members (xsections.h 134-162). -/
structure Legacy where
  Emin : ℝ
  Emax : ℝ
  div : Nat
  logE : List ℝ
  sCC : T3
  sNC : T3
  dCC : T4
  dNC : T4

/-- The value of the enumeration `NeutrinoType` (xsections.h 48). -/
def NType.idx : NType → Nat
  | .neutrino => 0
  | .antineutrino => 1

/-- `log`. -/
noncomputable def ln (x : ℝ) : Outcome ℝ := if 0 < x then .ok (Real.log x) else .ub

/-- `x / y` for doubles, where the quotient by zero is not a number. -/
noncomputable def quot (x y : ℝ) : Outcome ℝ := if y = 0 then .ub else .ok (x / y)

/-- `static_cast<size_t>(x)`: drops the fraction; the result must be a value of the type. -/
noncomputable def toSize (x : ℝ) : Outcome Nat := if -1 < x ∧ x < 2 ^ 64 then .ok ⌊x⌋₊ else .ub

/-- `LinInter` (xsections.cpp 588-590). -/
noncomputable def linInter (x xM xP yM yP : ℝ) : Outcome ℝ := (quot ((yP - yM) * (x - xM)) (xP - xM)).map (yM + ·)

/-- `TriLinInter` (xsections.cpp 593-603). -/
noncomputable def triLinInter (x y x1 y1 z1 x2 y2 z2 x3 y3 z3 : ℝ) : Outcome ℝ :=
  let denom := (y2 - y3) * (x1 - x3) + (x3 - x2) * (y1 - y3)
  (quot ((y2 - y3) * (x - x3) + (x3 - x2) * (y - y3)) denom).bind fun l1 =>
  (quot ((y3 - y1) * (x - x3) + (x1 - x3) * (y - y3)) denom).bind fun l2 =>
  let l3 := 1 - (l1 + l2)
  .ok (l1 * z1 + l2 * z2 + l3 * z3)

/-- `logE_data_range[i]`. -/
def Legacy.node (t : Legacy) (i : Nat) : Outcome ℝ := Outcome.ofOption t.logE[i]?

/-- `static_cast<size_t>((logE-logE_data_range[0])/dlogE)` with `dlogE = logE_data_range[1]-logE_data_range[0]` (xsections.cpp 626-627, 653-656). -/
noncomputable def Legacy.index (t : Legacy) (l : ℝ) : Outcome Nat :=
  (t.node 1).bind fun x1 => (t.node 0).bind fun x0 => (quot (l - x0) (x1 - x0)).bind toSize

/-- `current==CC ? s_CC_data : s_NC_data` (630). -/
def Legacy.sigma (t : Legacy) : Cur → T3
  | .CC => t.sCC
  | _ => t.sNC

/-- The interpolation at the end of `TotalCrossSection` (622-632). -/
noncomputable def Legacy.interpolate (t : Legacy) (f : Nat) (nt : NType) (c : Cur) (E : ℝ) : Outcome ℝ :=
  (ln (E / GeV)).bind fun l =>
  (t.index l).bind fun idx =>
  let idx := if idx = t.div then idx - 1 else idx
  (t.node idx).bind fun xM => (t.node (idx + 1)).bind fun xP =>
  ((t.sigma c).get nt.idx f idx).bind fun yM => ((t.sigma c).get nt.idx f (idx + 1)).bind fun yP =>
  linInter l xM xP yM yP

/-- `TotalCrossSection` (605-633); `again` is the recursive call of line 619. -/
noncomputable def Legacy.totalWith (again : ℝ → Outcome ℝ) (t : Legacy) (f : Nat) (nt : NType) (c : Cur) (E : ℝ) : Outcome ℝ :=
  if ¬(f = 0 ∨ f = 1 ∨ f = 2) then .ok 0
  else if E > t.Emax then .throws
  else if E < 10 * GeV ∧ t.Emin > 10 * GeV then .ok dblMin
  else if E < t.Emin then (again t.Emin).bind fun v => .ok (v * (E / t.Emin))
  else t.interpolate f nt c E

/-- `TotalCrossSection`; the recursive call is made for `Emin`, where it makes no further one. -/
noncomputable def Legacy.total (t : Legacy) (f : Nat) (nt : NType) (c : Cur) (E : ℝ) : Outcome ℝ :=
  Legacy.totalWith (Legacy.totalWith (fun _ => .ub) t f nt c) t f nt c E

/-- The two branches for CC and NC (663-684), which differ in the table only. -/
noncomputable def Legacy.corners (t : Legacy) (d : T4) (f : Nat) (nt : NType) (l1 l2 : ℝ) (m1 m2 : Nat) : Outcome ℝ :=
  (d.get nt.idx f m1 m2).bind fun phiMM =>
  (d.get nt.idx f m1 (m2 + 1)).bind fun phiMP =>
  if m1 = t.div - 1 then
    (t.node m2).bind fun xM => (t.node (m2 + 1)).bind fun xP => linInter l2 xM xP phiMM phiMP
  else
    (d.get nt.idx f (m1 + 1) m2).bind fun phiPM =>
    (d.get nt.idx f (m1 + 1) (m2 + 1)).bind fun phiPP =>
    (t.node m1).bind fun x1M => (t.node (m1 + 1)).bind fun x1P => (t.node m2).bind fun x2M => (t.node (m2 + 1)).bind fun x2P =>
    -- lines 687-692
    if m1 = m2 ∧ phiMP = 0 then triLinInter l1 l2 x1M x2M phiMM x1P x2M phiPM x1P x2P phiPP
    -- lines 694-696
    else
      (linInter l2 x2M x2P phiMM phiMP).bind fun a => (linInter l2 x2M x2P phiPM phiPP).bind fun b => linInter l1 x1M x1P a b

/-- `SingleDifferentialCrossSection` (635-697). -/
noncomputable def Legacy.single (t : Legacy) (f : Nat) (nt : NType) (c : Cur) (E1 E2 : ℝ) : Outcome ℝ :=
  if ¬(f = 0 ∨ f = 1 ∨ f = 2) then .ok 0
  else if E1 > t.Emax then .throws
  else if E1 < t.Emin then .ok dblMin
  else
    (ln (E1 / GeV)).bind fun l1 =>
    (ln (E2 / GeV)).bind fun l2 =>
    (t.index l1).bind fun m1 =>
    (t.index l2).bind fun m2 =>
    if m2 > t.div - 1 ∨ m1 > t.div - 1 ∨ E2 / GeV ≥ E1 / GeV then .ok 0
    else match c with
      | .CC => t.corners t.dCC f nt l1 l2 m1 m2
      | .NC => t.corners t.dNC f nt l1 l2 m1 m2
      | .GR => .throws

/-! ## Text files -/

/-- The four text files as `quickread` returns them: rows of numbers. `none`: the file does not exist. -/
structure LegacyText where
  dCC : Option (List (List ℝ))
  dNC : Option (List (List ℝ))
  sCC : Option (List (List ℝ))
  sNC : Option (List (List ℝ))

/-- Cell of a file; `marray` does not check, a cell that is not there is `ub`. -/
def rawCell (rows : List (List ℝ)) (i j : Nat) : Option ℝ := (rows[i]?).bind (·[j]?)

/-- The first column, with its logarithms (xsections.cpp 727-728). -/
noncomputable def firstColumn : List (List ℝ) → Outcome (List ℝ)
  | [] => .ok []
  | row :: rest => (Outcome.ofOption row[0]?).bind fun v => (ln v).bind fun l => (firstColumn rest).map (l :: ·)

/-- Every cell read by the loops of lines 739-751 is in the files. -/
def Covered (n : Nat) (sCC sNC dCC dNC : List (List ℝ)) : Prop :=
  ∀ nt f, nt < 2 → f < 3 → ∀ e1, e1 < n → (rawCell sCC e1 (1 + 2 * f + nt)).isSome ∧ (rawCell sNC e1 (1 + 2 * f + nt)).isSome ∧
    ∀ e2, e2 < n → (rawCell dCC (e1 * n + e2) (2 + 2 * f + nt)).isSome ∧ (rawCell dNC (e1 * n + e2) (2 + 2 * f + nt)).isSome

/-- `ReadText` (698-757). The second comparison of line 721 compares a table with itself. -/
noncomputable def legacyFromText (x : LegacyText) : Outcome Legacy :=
  match x.dCC, x.dNC, x.sCC, x.sNC with
  | some dCC, some dNC, some sCC, some sNC =>
    if ¬(sCC.length = sNC.length ∧ (sNC.head?.map List.length) = (sNC.head?.map List.length)) then .throws
    else
      let n := sCC.length
      (firstColumn sCC).bind fun logE =>
      (Outcome.ofOption (rawCell sCC 0 0)).bind fun lo =>
      (Outcome.ofOption (rawCell sCC (n - 1) 0)).bind fun hi =>
      open Classical in
      if Covered n sCC sNC dCC dNC then
        .ok ⟨lo * GeV, hi * GeV, n, logE,
          ⟨2, 3, n, fun nt f e => (rawCell sCC e (1 + 2 * f + nt)).getD 0⟩,
          ⟨2, 3, n, fun nt f e => (rawCell sNC e (1 + 2 * f + nt)).getD 0⟩,
          ⟨2, 3, n, n, fun nt f e1 e2 => (rawCell dCC (e1 * n + e2) (2 + 2 * f + nt)).getD 0⟩,
          ⟨2, 3, n, n, fun nt f e1 e2 => (rawCell dNC (e1 * n + e2) (2 + 2 * f + nt)).getD 0⟩⟩
      else .ub
  | _, _, _, _ => .throws

/-- One line of a table: the numbers before, then for each flavour the two types (816-818, 836-838). -/
noncomputable def lineOf (fmt : ℝ → ℝ) (before : List ℝ) (v : Nat → Nat → ℝ) : List ℝ :=
  (before ++ [v 0 0, v 1 0, v 0 1, v 1 1, v 0 2, v 1 2]).map fmt

/-- `writeTotal` (812-823). Reading cells outside the table is `ub`. -/
noncomputable def writeTotals (fmt : ℝ → ℝ) (t : T3) (logE : List ℝ) : Outcome (List (List ℝ)) :=
  if logE = [] ∨ 2 ≤ t.n0 ∧ 3 ≤ t.n1 ∧ logE.length ≤ t.n2 then
    .ok (logE.zipIdx.map fun (l, ie) => lineOf fmt [Real.exp l] fun pt fl => t.at_ pt fl ie)
  else .ub

/-- `writeDifferential` (827-844). -/
noncomputable def writeDifferentials (fmt : ℝ → ℝ) (t : T4) (logE : List ℝ) : Outcome (List (List ℝ)) :=
  if logE = [] ∨ 2 ≤ t.n0 ∧ 3 ≤ t.n1 ∧ logE.length ≤ t.n2 ∧ logE.length ≤ t.n3 then
    .ok (logE.zipIdx.flatMap fun (l1, e1) => logE.zipIdx.map fun (l2, e2) =>
      lineOf fmt [Real.exp l1, Real.exp l2] fun pt fl => t.at_ pt fl e1 e2)
  else .ub

/-- `WriteText` (808-847). -/
noncomputable def legacyWriteText (fmt : ℝ → ℝ) (t : Legacy) : Outcome LegacyText :=
  (writeTotals fmt t.sCC t.logE).bind fun sCC => (writeTotals fmt t.sNC t.logE).bind fun sNC =>
  (writeDifferentials fmt t.dCC t.logE).bind fun dCC => (writeDifferentials fmt t.dNC t.logE).bind fun dNC =>
  .ok ⟨some dCC, some dNC, some sCC, some sNC⟩

/-! ## HDF5 files -/

/-- The attributes and datasets of the file. -/
structure LegacyH5 where
  Emin : ℝ
  Emax : ℝ
  sCC : T3
  sNC : T3
  dCC : T4
  dNC : T4

/-- The constructor for one file (764-790). A failed `assert` is `ub`. The extents of the total cross sections are not looked at. `junk` is what
is in the array allocated by `logspace`. -/
noncomputable def legacyFromHDF (junk : ℝ) (x : LegacyH5) : Outcome Legacy :=
  if x.dCC.n2 = x.dCC.n3 ∧ x.dNC.n2 = x.dNC.n3 ∧ x.dCC.n2 = x.dNC.n2 ∧ x.dCC.n0 = 2 ∧ x.dNC.n0 = 2 ∧ x.dCC.n1 = 3 ∧ x.dNC.n1 = 3 then
    (if 0 < x.Emin / GeV ∧ 0 < x.Emax / GeV then Tools.logspace junk (x.Emin / GeV) (x.Emax / GeV) x.dCC.n2 else .ub).bind fun raw =>
    .ok ⟨x.Emin, x.Emax, x.dCC.n2, raw.map Real.log, x.sCC, x.sNC, x.dCC, x.dNC⟩
  else .ub

/-- `WriteHDF` (798-806). -/
def legacyWriteHDF (t : Legacy) : LegacyH5 := ⟨t.Emin, t.Emax, t.sCC, t.sNC, t.dCC, t.dNC⟩

end Verif.XS
