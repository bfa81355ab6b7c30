import Verif.Decoh.HistoryProps

/-!
# Decoherence in the atmospheric object (examples/Decoherence/nuSQUIDSDecoh.h 112-165; include/nuSQuIDS/nuSQuIDS.h 1581-1596, 1815-1824)

`nuSQUIDSDecohAtm` has one `nuSQUIDSDecoh` per zenith and passes every setting on to each of them in order; what it reports is that of the first.

Not modelled: `Set_Debug`.
-/

namespace Verif.Decoh

/-! ## Model -/

/-- A node: made by one of the constructors that call `init` (nuSQUIDSDecoh.h 31-40), or by default (27), when the number of basis vectors and the matrix are
missing and the others have no value until they are given one. -/
inductive Node where
  | ready (s : Nsq)
  | raw (switch : Option Bool) (index scale : Option ℝ)

/-- The setters of the wrapper (126-160). That of the matrix takes no second argument. -/
inductive SkyCall where
  | enable (b : Bool)
  | index (n : ℝ)
  | scale (e : ℝ)
  | matrix (rows cols : Nat) (d : Nat → Nat → ℝ)
  | diagonal (len : Nat) (d : Nat → ℝ) (gm : Bool)

/-- The call made on a node; the second argument of `Set_DecoherenceGammaMatrix` is the default (48, 135). -/
def SkyCall.passed : SkyCall → Call
  | .enable b => .enable b
  | .index n => .index n
  | .scale e => .scale e
  | .matrix r c d => .matrix r c d true
  | .diagonal len d gm => .diagonal len d gm

/-- The call on one node. The matrix of a node made by default is checked against a number that has no value. -/
def nodeStep (c : SkyCall) : Node → Node × Outcome Unit
  | .ready s => let r := step s c.passed; (.ready r.1, r.2)
  | .raw b n e =>
    match c with
    | .enable b' => (.raw (some b') n e, .ok ())
    | .index n' => (.raw b (some n') e, .ok ())
    | .scale e' => (.raw b n (some e'), .ok ())
    | .matrix .. => (.raw b n e, .ub)
    | .diagonal .. => (.raw b n e, .ub)

/-- The loops over the nodes; the first exception ends them. -/
def skyStep (c : SkyCall) : List Node → List Node × Outcome Unit
  | [] => ([], .ok ())
  | x :: l =>
    match nodeStep c x with
    | (y, .ok _) => let r := skyStep c l; (y :: r.1, r.2)
    | (y, o) => (y :: l, o)

/-- The nodes as the constructors of the atmospheric object make them, for `k` zeniths. -/
def skyInit (k numneu : Nat) (GeV : ℝ) : List Node := List.replicate k (.ready (init numneu GeV))

/-- The nodes after a state file with `k` zeniths was read, by the constructor or by `ReadStateHDF5` (nuSQuIDS.h 1583). -/
def skyRead (k : Nat) : List Node := List.replicate k (.raw none none none)

/-- The getters (141-163), through `GetnuSQuIDS(0)`, which checks the index. -/
def skyMatrix : List Node → Outcome (Nat × (Nat → Nat → ℝ))
  | [] => .throws
  | .ready s :: _ => .ok (s.nb, getMatrix s)
  | .raw .. :: _ => .ub

def skyIndex : List Node → Outcome ℝ
  | [] => .throws
  | .ready s :: _ => .ok s.index
  | .raw _ n _ :: _ => match n with | some n => .ok n | none => .ub

def skyScale : List Node → Outcome ℝ
  | [] => .throws
  | .ready s :: _ => .ok s.scale
  | .raw _ _ e :: _ => match e with | some e => .ok e | none => .ub

/-- `InteractionsRho` of a node (nuSQUIDSDecoh.cpp 219-224). -/
noncomputable def Node.interactionsRho (x : Node) (E : ℝ) (base rho : Nat → ℝ) (i : Nat) : Outcome ℝ :=
  match x with
  | .ready s => .ok (Decoh.interactionsRho s E base rho i)
  | .raw (some false) _ _ => .ok (base i)
  | .raw _ _ _ => .ub

/-- Histories of an object made for `k` zeniths. -/
inductive SkyRun (k numneu : Nat) (GeV : ℝ) : List SkyCall → List Node → Prop where
  | start : SkyRun k numneu GeV [] (skyInit k numneu GeV)
  | call {h : List SkyCall} {l l' : List Node} {o : Outcome Unit} (c : SkyCall) (hr : SkyRun k numneu GeV h l) (hc : skyStep c l = (l', o)) :
      SkyRun k numneu GeV (h ++ [c]) l'

/-! ## Lemmas -/

/-- A call that can be passed on is accepted or changes nothing. -/
theorem passed_step (s : Nsq) (c : SkyCall) : ∃ s' o, step s c.passed = (s', o) ∧ (o = .ok () ∨ o = .throws ∧ s' = s) := by
  have hm : ∀ (r k : Nat) (d : Nat → Nat → ℝ) (gm : Bool), ∃ s' o, setMatrix s r k d gm = (s', o) ∧ (o = .ok () ∨ o = .throws ∧ s' = s) := by
    intro r k d gm
    by_cases h : r ≠ s.nb ∨ k ≠ s.nb ∨ (gm = true ∧ s.numneu ≠ 0 ∧ s.numneu ≠ 2 ∧ s.numneu ≠ 3)
    · exact ⟨_, _, c87_refused s r k d gm h, .inr ⟨rfl, rfl⟩⟩
    · simp only [not_or, not_and, not_not] at h
      obtain ⟨rfl, rfl, h3⟩ := h
      cases gm with
      | false =>
        obtain ⟨s', h1, _⟩ := c87_set_get s d
        exact ⟨s', _, h1, .inl rfl⟩
      | true =>
        by_cases h0 : s.numneu = 0
        · have hnb : s.nb = 0 := by unfold Nsq.nb; rw [h0]; rfl
          refine ⟨s, .ok (), ?_, .inl rfl⟩
          unfold setMatrix
          rw [hnb]
          simp [pairs, setLoop]
        · by_cases h2 : s.numneu = 2
          · obtain ⟨s', h1, _⟩ := c87_set_get_gellMann s (.inl h2) d
            exact ⟨s', _, h1, .inl rfl⟩
          · obtain ⟨s', h1, _⟩ := c87_set_get_gellMann s (.inr (h3 rfl h0 h2)) d
            exact ⟨s', _, h1, .inl rfl⟩
  cases c with
  | enable b => exact ⟨_, _, rfl, .inl rfl⟩
  | index n => exact ⟨_, _, rfl, .inl rfl⟩
  | scale e => exact ⟨_, _, rfl, .inl rfl⟩
  | matrix r k d => exact hm r k d true
  | diagonal len d gm =>
    by_cases hl : len = s.nb
    · obtain ⟨s', o, h1, h2⟩ := hm s.nb s.nb (fun i j => if i = j then d i else 0) gm
      exact ⟨s', o, ((c87_diagonal s len d gm).2 hl).trans h1, h2⟩
    · exact ⟨_, _, (c87_diagonal s len d gm).1 hl, .inr ⟨rfl, rfl⟩⟩

theorem skyStep_ok (c : SkyCall) (s s' : Nsq) (h : step s c.passed = (s', .ok ())) :
    ∀ k, skyStep c (List.replicate k (.ready s)) = (List.replicate k (.ready s'), .ok ()) := by
  intro k
  induction k with
  | zero => rfl
  | succ k ih =>
    rw [List.replicate_succ, skyStep, nodeStep, h]
    dsimp only
    rw [ih]
    rfl

theorem skyStep_throws (c : SkyCall) (s : Nsq) (h : step s c.passed = (s, .throws)) (k : Nat) :
    skyStep c (List.replicate (k + 1) (.ready s)) = (List.replicate (k + 1) (.ready s), .throws) := by
  rw [List.replicate_succ, skyStep, nodeStep, h]

end Verif.Decoh
