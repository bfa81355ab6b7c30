import Verif.Decoh.Sky

/-! C120: decoherence in the atmospheric object. -/

namespace Verif.Decoh

/-! ## Specification -/

/-- What a call to the atmospheric object asks for: a power, an energy scale, a switch, or a matrix with its numbering (that of Gell-Mann, if a full
matrix is given). A matrix of the wrong size, or in the numbering of Gell-Mann with more than three flavours, is not accepted. -/
def askedIndex : SkyCall → Option ℝ
  | .index n => some n
  | _ => none

def askedScale : SkyCall → Option ℝ
  | .scale e => some e
  | _ => none

def askedSwitch : SkyCall → Option Bool
  | .enable b => some b
  | _ => none

def askedMatrix (numneu : Nat) : SkyCall → Option ((Nat → Nat → ℝ) × Bool)
  | .matrix r c d => if r = numneu ^ 2 ∧ c = numneu ^ 2 ∧ (numneu = 0 ∨ numneu = 2 ∨ numneu = 3) then some (d, true) else none
  | .diagonal len d gm =>
    if len = numneu ^ 2 ∧ (gm = true → numneu = 0 ∨ numneu = 2 ∨ numneu = 3) then some (fun i j => if i = j then d i else 0, gm) else none
  | _ => none

/-- The calls that give a matrix. -/
def SkyCall.setsMatrix : SkyCall → Bool
  | .matrix .. => true
  | .diagonal .. => true
  | _ => false

/-- The value of the last call that asks for one, else `x`. -/
def lastAsked {α : Type} (f : SkyCall → Option α) : List SkyCall → α → α
  | [], x => x
  | c :: h, x => lastAsked f h ((f c).getD x)

/-! ## Proofs -/

theorem lastAsked_passed {α : Type} (g : Call → Option α) (f : SkyCall → Option α) (hgf : ∀ c, g c.passed = f c) (h : List SkyCall) (x : α) :
    lastOf g (h.map SkyCall.passed) x = lastAsked f h x := by
  induction h generalizing x with
  | nil => rfl
  | cons c h ih => rw [List.map_cons, lastOf, lastAsked, hgf, ih]

theorem asked_passed (numneu : Nat) : (∀ c, givenIndex (SkyCall.passed c) = askedIndex c) ∧ (∀ c, givenScale (SkyCall.passed c) = askedScale c) ∧
    (∀ c, givenSwitch (SkyCall.passed c) = askedSwitch c) ∧ (∀ c, givenMatrix numneu (SkyCall.passed c) = askedMatrix numneu c) := by
  refine ⟨fun c => ?_, fun c => ?_, fun c => ?_, fun c => ?_⟩ <;> cases c <;> simp [SkyCall.passed, givenIndex, askedIndex, givenScale, askedScale,
    givenSwitch, askedSwitch, givenMatrix, askedMatrix]

/-- C120: after every history all zeniths have the settings of one object on which the same calls were made. -/
theorem c120_uniform {k numneu : Nat} {GeV : ℝ} {h : List SkyCall} {l : List Node} (hr : SkyRun k numneu GeV h l) :
    ∃ s, Run numneu GeV (h.map SkyCall.passed) s ∧ l = List.replicate k (.ready s) := by
  induction hr with
  | start => exact ⟨init numneu GeV, .start, rfl⟩
  | call c _ hc ih =>
    obtain ⟨s, h1, rfl⟩ := ih
    obtain ⟨s', o, h2, h3⟩ := passed_step s c
    refine ⟨s', ?_, ?_⟩
    · rw [List.map_append, List.map_singleton]
      refine .call c.passed h1 h2 ?_
      rcases h3 with rfl | ⟨rfl, _⟩ <;> simp
    · rcases h3 with rfl | ⟨rfl, rfl⟩
      · rw [skyStep_ok c s s' h2 k] at hc
        exact (Prod.mk.inj hc).1.symm
      · cases k with
        | zero => exact (Prod.mk.inj hc).1.symm
        | succ k =>
          rw [skyStep_throws c s' h2 k] at hc
          exact (Prod.mk.inj hc).1.symm

/-- A history of three calls, the second of them refused. -/
example : ∃ l, SkyRun 2 3 10 [.index 2, .diagonal 4 (fun _ => 1) true, .scale 5] l :=
  ⟨_, .call (.scale 5) (.call (.diagonal 4 (fun _ => 1) true) (.call (.index 2) .start rfl) rfl) rfl⟩

theorem setMatrix_refused (s : Nsq) (r k : Nat) (d : Nat → Nat → ℝ) (gm : Bool) : (setMatrix s r k d gm).2 = .throws ↔
    ¬(r = s.nb ∧ k = s.nb ∧ (gm = true → s.numneu = 0 ∨ s.numneu = 2 ∨ s.numneu = 3)) := by
  constructor
  · rintro h ⟨rfl, rfl, h3⟩
    cases gm with
    | false =>
      obtain ⟨s', h1, _⟩ := c87_set_get s d
      rw [h1] at h; cases h
    | true =>
      rcases h3 rfl with h0 | h2
      · have hnb : s.nb = 0 := by unfold Nsq.nb; rw [h0]; rfl
        unfold setMatrix at h
        rw [hnb] at h
        simp [pairs, setLoop] at h
      · obtain ⟨s', h1, _⟩ := c87_set_get_gellMann s h2 d
        rw [h1] at h; cases h
  · intro h
    rw [c87_refused s r k d gm (by
      by_contra hc
      simp only [not_or, not_and, not_not] at hc
      obtain ⟨h1, h2, h3⟩ := hc
      refine h ⟨h1, h2, fun hg => ?_⟩
      by_cases h0 : s.numneu = 0
      · exact .inl h0
      by_cases h2 : s.numneu = 2
      · exact .inr (.inl h2)
      · exact .inr (.inr (h3 hg h0 h2)))]

theorem step_refused (s : Nsq) (c : SkyCall) : (step s c.passed).2 = .throws ↔ c.setsMatrix = true ∧ askedMatrix s.numneu c = none := by
  cases c with
  | enable b => simp [SkyCall.passed, step, SkyCall.setsMatrix]
  | index n => simp [SkyCall.passed, step, SkyCall.setsMatrix]
  | scale e => simp [SkyCall.passed, step, SkyCall.setsMatrix]
  | matrix r k d =>
    have := setMatrix_refused s r k d true
    simp only [Nsq.nb] at this
    simp only [SkyCall.passed, step, SkyCall.setsMatrix, askedMatrix, true_and]
    rw [this]
    by_cases hc : r = s.numneu ^ 2 ∧ k = s.numneu ^ 2 ∧ (s.numneu = 0 ∨ s.numneu = 2 ∨ s.numneu = 3)
    · rw [if_pos hc]; simp [hc]
    · rw [if_neg hc]; simpa using hc
  | diagonal len d gm =>
    simp only [SkyCall.passed, SkyCall.setsMatrix, askedMatrix, true_and]
    by_cases hl : len = s.nb
    · rw [show (step s (.diagonal len d gm)) = setMatrix s s.nb s.nb (fun i j => if i = j then d i else 0) gm from (c87_diagonal s len d gm).2 hl,
        setMatrix_refused]
      by_cases hc : gm = true → s.numneu = 0 ∨ s.numneu = 2 ∨ s.numneu = 3
      · rw [if_pos ⟨hl, hc⟩]
        exact ⟨fun h => absurd ⟨rfl, rfl, hc⟩ h, fun h => by cases h⟩
      · rw [if_neg (fun h => hc h.2)]; simpa using hc
    · rw [show (step s (.diagonal len d gm)) = (s, .throws) from (c87_diagonal s len d gm).1 hl]
      rw [if_neg (fun h => hl h.1)]
      exact ⟨fun _ => rfl, fun _ => rfl⟩

/-- C120: a call is refused by an object with zeniths exactly if it gives a matrix that cannot be accepted, and then nothing changes. -/
theorem c120_refused {k numneu : Nat} {GeV : ℝ} {h : List SkyCall} {l : List Node} (hr : SkyRun (k + 1) numneu GeV h l) (c : SkyCall) :
    ((skyStep c l).2 = .throws ↔ c.setsMatrix = true ∧ askedMatrix numneu c = none) ∧ (skyStep c l).2 ≠ .ub ∧
      ((skyStep c l).2 ≠ .ok () → (skyStep c l).1 = l) := by
  obtain ⟨s, hs, rfl⟩ := c120_uniform hr
  obtain ⟨s', o, h2, h3⟩ := passed_step s c
  have he := step_refused s c
  rw [(c87_history hs).1] at he
  rw [← he]
  rcases h3 with rfl | ⟨rfl, rfl⟩
  · rw [skyStep_ok c s s' h2, h2]
    simp
  · rw [skyStep_throws c s' h2, h2]
    simp

example : SkyRun (1 + 1) 3 10 [] (skyInit 2 3 10) := .start

/-- C120: every zenith has the power, the energy scale and the switch given last, and the matrix given last that was accepted; the getters report these, and
throw if there is no zenith. The term added to the equation of every zenith is the one they make. -/
theorem c120_settings_partial {k numneu : Nat} {GeV : ℝ} {h : List SkyCall} {l : List Node} (hr : SkyRun k numneu GeV h l) :
    (∀ j < k, ∃ s, l[j]? = some (.ready s) ∧ s.index = lastAsked askedIndex h 0 ∧
      s.scale = lastAsked askedScale h GeV ∧ s.enabled = lastAsked askedSwitch h true ∧
      Holds numneu (lastAsked (askedMatrix numneu) h (fun _ _ => 0, false)) s.gamma ∧
      skyMatrix l = .ok (numneu ^ 2, s.gamma) ∧ skyIndex l = .ok s.index ∧ skyScale l = .ok s.scale ∧
      ∀ E base rho i, (Node.ready s).interactionsRho E base rho i = .ok (if s.enabled then
        base i - (List.range (numneu ^ 2)).foldl (fun acc j => acc + s.gamma i j * rho j * (E / s.scale) ^ s.index) 0 else base i)) ∧
    (k = 0 → skyMatrix l = .throws ∧ skyIndex l = .throws ∧ skyScale l = .throws) := by
  obtain ⟨s, h1, rfl⟩ := c120_uniform hr
  obtain ⟨i1, i2, i3, i4, i5⟩ := c87_history h1
  obtain ⟨a1, a2, a3, a4⟩ := asked_passed numneu
  rw [lastAsked_passed _ _ a1] at i2
  rw [lastAsked_passed _ _ a2] at i3
  rw [lastAsked_passed _ _ a3] at i4
  rw [lastAsked_passed _ _ a4] at i5
  constructor
  · intro j hj
    obtain ⟨k, rfl⟩ : ∃ m, k = m + 1 := ⟨k - 1, by omega⟩
    refine ⟨s, by simp [hj], i2, i3, i4, i5, ?_, rfl, rfl, ?_⟩
    · show Outcome.ok (s.nb, getMatrix s) = _
      unfold Nsq.nb getMatrix
      rw [i1]
    · intro E base rho i
      simp only [Node.interactionsRho, interactionsRho, drho, Nsq.nb, i1]
  · rintro rfl
    exact ⟨rfl, rfl, rfl⟩

example : SkyRun 0 3 10 [] [] ∧ SkyRun 4 2 10 [] (skyInit 4 2 10) := ⟨.start, .start⟩

/-- C120, disagreement: a full matrix can be given with two or three flavours only; the object of one zenith takes it with any number, in the numbering of
SQuIDS, which the wrapper does not offer. -/
theorem c120_matrix_violated (numneu : Nat) (hn : 4 ≤ numneu) (GeV : ℝ) (k : Nat) (h : List SkyCall) (l : List Node) (hr : SkyRun (k + 1) numneu GeV h l)
    (d : Nat → Nat → ℝ) :
    (∀ rows cols, skyStep (.matrix rows cols d) l = (l, .throws)) ∧
    ∃ s s', l[0]? = some (.ready s) ∧ step s (.matrix (numneu ^ 2) (numneu ^ 2) d false) = (s', .ok ()) := by
  obtain ⟨s, h1, rfl⟩ := c120_uniform hr
  have hs := (c87_history h1).1
  constructor
  · intro rows cols
    exact skyStep_throws (.matrix rows cols d) s (c87_refused s rows cols d true (.inr (.inr ⟨rfl, by omega, by omega, by omega⟩))) k
  · obtain ⟨s', h2, _⟩ := c87_set_get s d
    refine ⟨s, s', by simp, ?_⟩
    show setMatrix s _ _ d false = _
    rw [← h2, Nsq.nb, hs]

example : SkyRun (2 + 1) 4 10 [] (skyInit 3 4 10) := .start

/-- C120, disagreement: after a state file was read the nodes are made by default and never set up: the matrix can neither be given nor read, and the
term of decoherence, asked for if the file is of an object with interactions, is undefined unless decoherence is switched off first. -/
theorem c120_file_violated (k : Nat) :
    (∀ rows cols d, (skyStep (.matrix rows cols d) (skyRead (k + 1))).2 = .ub) ∧
    (∀ len d gm, (skyStep (.diagonal len d gm) (skyRead (k + 1))).2 = .ub) ∧
    skyMatrix (skyRead (k + 1)) = .ub ∧ skyIndex (skyRead (k + 1)) = .ub ∧ skyScale (skyRead (k + 1)) = .ub ∧
    (∀ x ∈ skyRead (k + 1), ∀ E base rho i, x.interactionsRho E base rho i = .ub) ∧
    (∀ b, (skyStep (.enable b) (skyRead (k + 1))).2 = .ok () ∧ ∀ x ∈ (skyStep (.enable b) (skyRead (k + 1))).1, ∀ E base rho i,
      x.interactionsRho E base rho i = if b then .ub else .ok (base i)) := by
  have hall : ∀ b n, skyStep (.enable b) (skyRead n) = (List.replicate n (.raw (some b) none none), .ok ()) := by
    intro b n
    induction n with
    | zero => rfl
    | succ n ih =>
      unfold skyRead at ih ⊢
      rw [List.replicate_succ, skyStep, nodeStep]
      dsimp only
      rw [ih]
      rfl
  refine ⟨fun _ _ _ => rfl, fun _ _ _ => rfl, rfl, rfl, rfl, ?_, ?_⟩
  · intro x hx E base rho i
    rw [List.eq_of_mem_replicate hx]
    rfl
  · intro b
    rw [hall]
    refine ⟨rfl, ?_⟩
    intro x hx E base rho i
    rw [List.eq_of_mem_replicate hx]
    cases b <;> rfl

/-- C120, disagreement: what is set on one node only, through `GetnuSQuIDS`, is not seen by the getters, which report the first node. -/
theorem c120_node_violated : ∃ (l l' : List Node) (s s' : Nsq), SkyRun 2 3 10 [] l ∧ l[1]? = some (.ready s) ∧ step s (.index 2) = (s', .ok ()) ∧
    l' = l.set 1 (.ready s') ∧ s'.index = 2 ∧ skyIndex l' = .ok 0 :=
  ⟨skyInit 2 3 10, (skyInit 2 3 10).set 1 (.ready (setIndex (init 3 10) 2)), init 3 10, setIndex (init 3 10) 2, .start, rfl, rfl, rfl, rfl, rfl⟩

end Verif.Decoh
