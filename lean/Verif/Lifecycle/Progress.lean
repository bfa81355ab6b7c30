import Verif.Lifecycle.Model

/-!
# The progress bar (src/nuSQuIDS.cpp 292-295, 1287-1288, 1303-1304, 2787-2800; include/nuSQuIDS/nuSQuIDS.h 485-489, 1292-1321, 1754-1758)

What is written to `std::cout` is a list of characters. Positions are rationals; dividing by a track of no length gives an infinity or a NaN, which cannot be
converted to an `int`. The values of the positions at which the integrator asks for the derivative are arbitrary.

Not modelled: a stream that fails; output of several threads at once, which only the text of the atmospheric object could cause.
-/

namespace Verif.Life

/-! ## Model -/

/-- `progressbar`, `progressbar_count`, `progressbar_loop` (nuSQuIDS.h 485-489). -/
structure Bar where
  on : Bool
  count : Int
  loop : Int
  deriving DecidableEq, Repr

/-- The members of a new object. -/
def Bar.new : Bar := ⟨false, 0, 100⟩

/-- One cell of the bar (2793-2795). -/
def cell (pos : Int) (i : Nat) : Char := if (i : Int) < pos then '=' else if (i : Int) = pos then '>' else ' '

/-- `ProgressBar` (2787-2800) for a track from `xi` to `xe` at `x`. -/
def drawBar (xi xe x : Rat) : Outcome (List Char) :=
  if xe - xi = 0 then .ub
  else
    let progress := (x - xi) / (xe - xi)
    match toInt (70 * progress) with
    | none => .ub
    | some pos =>
      match toInt (progress * 100) with
      | none => .ub
      | some percent =>
        .ok ('[' :: (List.range 70).map (cell pos) ++ [']', ' '] ++ (toString percent).toList ++ [' ', '%', '\r'])

/-- The part of `PreDerive` about the bar (292-295), the track being at `x`. `%` truncates; a signed overflow is undefined. -/
def Bar.tick (b : Bar) (xi xe x : Rat) : Outcome (Bar × List Char) :=
  (if b.on then
    if b.loop = 0 then .ub
    else if b.count.tmod b.loop = 0 then drawBar xi xe x
    else .ok []
  else .ok []).bind fun out =>
    if b.count = 2 ^ 31 - 1 then .ub else .ok ({ b with count := b.count + 1 }, out)

/-- Evaluations of the derivative at the positions given. -/
def Bar.ticks (xi xe : Rat) : Bar → List Rat → Outcome (Bar × List Char)
  | b, [] => .ok (b, [])
  | b, x :: xs => (b.tick xi xe x).bind fun r => (ticks xi xe r.1 xs).bind fun q => .ok (q.1, r.2 ++ q.2)

/-- A track from `xi` to `xe`, now at `x`, and the positions at which the derivative is evaluated along it. -/
structure Ride where
  xi : Rat
  xe : Rat
  x : Rat
  xs : List Rat

/-- `EvolveState` as far as the bar is concerned (1287-1288, 1303-1304): the last bar is drawn where the track was left. -/
def Bar.evolve (b : Bar) (r : Ride) : Outcome (Bar × List Char) :=
  (b.ticks r.xi r.xe r.xs).bind fun q =>
    if q.1.on then (drawBar r.xi r.xe (r.xs.getLast?.getD r.x)).bind fun l => .ok (q.1, q.2 ++ l) else .ok q

/-- `progressbar` of the atmospheric object, those of its nodes, and `costh_array` (nuSQuIDS.h 1081). -/
structure SkyBar where
  on : Bool
  costh : List Rat
  nodes : List Bar

/-- `nuSQUIDSAtm::Set_ProgressBar` (1754-1758). -/
def SkyBar.set (a : SkyBar) (opt : Bool) : SkyBar := { a with on := opt, nodes := a.nodes.map fun b => { b with on := opt } }

/-- The line before a node (1296-1299). -/
def title (str : Rat → List Char) (on : Bool) (costh : List Rat) (i : Nat) : Outcome (List Char) :=
  if on then
    match costh[i]? with
    | none => .ub
    | some c => .ok ("Calculating cos(th) = ".toList ++ str c ++ ['\n'])
  else .ok []

/-- The loop of one thread (1293-1304); `i` is the variable of 1293, `str` is `std::to_string`. -/
def serial (str : Rat → List Char) (on : Bool) (costh : List Rat) : Nat → List (Bar × Ride) → Outcome (List Bar × List Char)
  | _, [] => .ok ([], [])
  | i, (b, r) :: l =>
    (title str on costh i).bind fun t =>
      (b.evolve r).bind fun q =>
        (serial str on costh (if on then i + 1 else i) l).bind fun w =>
          .ok (q.1 :: w.1, t ++ q.2 ++ (if on then ['\n'] else []) ++ w.2)

/-- What the threads leave of the nodes (1313-1314), in whatever order they run. -/
def pooled : List (Bar × Ride) → Outcome (List Bar × List Char)
  | [] => .ok ([], [])
  | (b, r) :: l => (b.evolve r).bind fun q => (pooled l).bind fun w => .ok (q.1 :: w.1, q.2 ++ w.2)

/-- The lines written as the tasks are waited for (1315-1319), for `n` tasks from `i`. -/
def reports (str : Rat → List Char) (costh : List Rat) : Nat → Nat → Outcome (List Char)
  | _, 0 => .ok []
  | i, n + 1 =>
    match costh[i]? with
    | none => .ub
    | some c => (reports str costh (i + 1) n).bind fun l => .ok ("cos(th) = ".toList ++ str c ++ " complete\n".toList ++ l)

/-- `nuSQUIDSAtm::EvolveState` as far as the bars are concerned (1292-1321). -/
def SkyBar.evolve (str : Rat → List Char) (threads : Nat) (a : SkyBar) (rides : List Ride) : Outcome (SkyBar × List Char) :=
  if threads = 1 then (serial str a.on a.costh 0 (a.nodes.zip rides)).bind fun w => .ok ({ a with nodes := w.1 }, w.2)
  else
    let quiet := a.set false
    (pooled (quiet.nodes.zip rides)).bind fun w =>
      (if a.on then reports str a.costh 0 w.1.length else .ok []).bind fun l =>
        .ok (SkyBar.set { quiet with nodes := w.1 } a.on, w.2 ++ l)

/-! ## Specification -/

/-- The part of the way from `xi` to `xe` that is behind at `x`. -/
def travelled (xi xe x : Rat) : Rat := (x - xi) / (xe - xi)

/-- The line for a part `p` of the way, between 0 and 1: as many `=` as seventieths are complete, an arrow head in the cell that is not, blanks, and the
complete hundredths. -/
def line (p : Rat) : List Char :=
  '[' :: List.replicate (70 * p).floor.toNat '=' ++ (if p < 1 then '>' :: List.replicate (69 - (70 * p).floor.toNat) ' ' else []) ++
    "] ".toList ++ (toString (100 * p).floor).toList ++ " %\r".toList

/-- `x` is on the way from `xi` to `xe`, in whichever direction it leads. -/
def OnWay (xi xe x : Rat) : Prop := xi ≤ x ∧ x ≤ xe ∨ xe ≤ x ∧ x ≤ xi

/-- Every position of a ride is on its way, which leads somewhere. -/
structure Ride.Good (r : Ride) : Prop where
  long : r.xi ≠ r.xe
  start : OnWay r.xi r.xe r.x
  way : ∀ x ∈ r.xs, OnWay r.xi r.xe x

/-- The lines of the evaluations whose number, counted from `count`, is a multiple of 100. -/
def hundredths (xi xe : Rat) (count : Nat) (xs : List Rat) : List Char :=
  (xs.zipIdx count).flatMap fun p => if 100 ∣ p.2 then line (travelled xi xe p.1) else []

/-- All the lines of a ride. -/
def Ride.lines (r : Ride) (count : Nat) : List Char :=
  hundredths r.xi r.xe count r.xs ++ line (travelled r.xi r.xe (r.xs.getLast?.getD r.x))

/-- A bar that has been counting since its object was made, or since that of an object whose counter it took. -/
structure Bar.Good (b : Bar) (n : Nat) : Prop where
  loop : b.loop = 100
  count : b.count = n

end Verif.Life
