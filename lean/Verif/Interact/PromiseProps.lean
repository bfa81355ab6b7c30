import Verif.Alloc.Props
import Verif.Interact.PromiseLemmas

namespace Verif.Promise

open Marr
open Matter (NT)
open Alloc (allocate needed)
open Update (le_roundUp)

/-- C75: every entry `UpdateInteractions` touches through a pointer to a row belongs to the array, whether the members were sized by
`InitializeInteractions` or by reading a state, in every valid setting. Missing: settings switched on after the members were sized
(`c75_switched_on_later_violated`). -/
theorem c75_in_bounds_partial (c : Cfg) (hv : Valid c) (m : Sized) (hm : Fresh c m) :
    ∀ a ∈ accesses c, Inside (extents c m a.arr) a := by
  have hle := le_roundUp c.ne
  intro a ha
  exact (accesses_fit hv m hm.enough a ha).inside

/-- C75, partial: the alignment promised for a row of an array that gets its storage from `aligned_allocator` holds, for every address the
system may return. Missing: `nc_factors`, which does not (`c75_nc_factors_violated`, `c75_nc_factors_read_violated`). -/
theorem c75_promises_kept_partial (c : Cfg) (hv : Valid c) (m : Sized) (hm : Fresh c m) (a : Access)
    (ha : a ∈ accesses c) (hal : usesAligned a.arr = true) (p n : Nat) (mem : Nat → Nat) (hp0 : 0 < p) (hp : p + needed 5 8 n < 2 ^ 64)
    (r : Alloc.Allocation) (hr : allocate 5 8 n p mem = .ok r) : Kept r.ret (extents c m a.arr) a := by
  intro _
  have hle := le_roundUp c.ne
  obtain ⟨pre, w, he, hidx, _⟩ := accesses_fit hv m hm.enough a ha
  obtain ⟨pre', w', he', hw⟩ := row_aligned c m a.arr hal
  have hww : w = w' := by
    rw [he] at he'
    have := congrArg List.getLast? he'
    simpa using this
  subst hww
  have hfit : n ≤ Alloc.maxSize 5 8 := by
    by_cases hc : n ≤ Alloc.maxSize 5 8
    · exact hc
    · unfold allocate at hr
      rw [if_pos (by omega)] at hr
      simp at hr
  obtain ⟨r', hr', hdvd, _⟩ := Alloc.c16_aligned 5 8 n p mem (by omega) (by omega) hp0 hfit hp
  rw [hr'] at hr
  have hrr : r' = r := by simpa using hr
  subst hrr
  obtain ⟨q, hq⟩ := offset_row pre a.idx w hidx.length_eq
  unfold address
  rw [he, hq]
  have hb : r'.ret % 32 = 0 := Nat.mod_eq_zero_of_dvd hdvd
  obtain ⟨v, rfl⟩ := Nat.dvd_of_mod_eq_zero hw
  have : 8 * (q * (4 * v)) = 32 * (q * v) := by rw [← Nat.mul_assoc, ← Nat.mul_assoc, Nat.mul_comm 8 q, Nat.mul_assoc q 8 4, Nat.mul_comm q, Nat.mul_assoc]
  rw [this]
  omega

/-- Both types, five nodes, everything on. -/
def demoCfg (osc : Bool) : Cfg := ⟨5, 2, 3, 2, .both, true, true, osc⟩

example : Valid (demoCfg true) ∧ Valid (demoCfg false) :=
  ⟨⟨rfl, by decide, fun _ => rfl⟩, ⟨rfl, by decide, fun _ => rfl⟩⟩

/-- The row of `dNdE_CC` for antineutrinos at the highest node; the system returned an address that is 16 modulo 32. -/
example : (⟨.dNdE_CC, [1, 1, 2, 4], 4, true⟩ : Access) ∈ accesses (demoCfg true) ∧
    (allocate 5 8 480 1040 fun _ => 0).map (fun r => (r.ret, address r.ret (extents (demoCfg true) ⟨8, true, true⟩ .dNdE_CC) ⟨.dNdE_CC, [1, 1, 2, 4], 4, true⟩ % 32)) =
      .ok (1056, 0) := by decide

/-- C75, disagreement: with oscillations the same is promised for the rows of `nc_factors`, whose storage comes from the default
allocator. That aligns to 16 bytes; at every address that is 16 modulo 32 no promise about it holds. -/
theorem c75_nc_factors_violated (c : Cfg) (ho : c.osc = true) (hne : 2 ≤ c.ne) (hr : 1 ≤ c.nrhos) (ht : 1 ≤ c.nTargets) (base : Nat)
    (hb : base % 32 = 16) :
    (∃ a ∈ accesses c, a.arr = .nc_factors ∧ a.promised = true) ∧
    ∀ a ∈ accesses c, a.arr = .nc_factors → a.promised = true → ¬Kept base (extents c (initialise c none) .nc_factors) a := by
  have hmem : ∀ a ∈ accesses c, a.arr = .nc_factors → ∃ rho f, a.idx = [rho, f] := by
    intro a ha harr
    unfold accesses at ha
    rw [if_pos ho] at ha
    rcases List.mem_append.1 ha with ha | ha
    · unfold grLengths at ha
      split at ha
      · simp only [List.mem_cons, List.not_mem_nil, or_false] at ha
        rcases ha with rfl | rfl | rfl <;> simp at harr
      · simp at ha
    · unfold oscRows at ha
      simp only [List.mem_append] at ha
      rcases ha with (ha | ha) | ha
      · unfold ncRows at ha
        rw [List.mem_flatMap] at ha
        obtain ⟨rho, hrho, ha⟩ := ha
        rw [List.mem_flatMap] at ha
        obtain ⟨f, hf, ha⟩ := ha
        rw [List.mem_flatMap] at ha
        obtain ⟨e2, he2, ha⟩ := ha
        rw [List.mem_flatMap] at ha
        obtain ⟨trg, htrg, ha⟩ := ha
        simp only [List.mem_cons, List.not_mem_nil, or_false] at ha
        rcases ha with rfl | rfl
        · exact ⟨rho, f, rfl⟩
        · simp at harr
      · split at ha
        · simp only [List.mem_append] at ha
          rcases ha with ha | ha
          · unfold tauProduction at ha
            rcases List.mem_cons.1 ha with rfl | ha
            · simp at harr
            · rw [List.mem_flatMap] at ha
              obtain ⟨en, hen, ha⟩ := ha
              rw [List.mem_flatMap] at ha
              obtain ⟨trg, htrg, ha⟩ := ha
              simp only [List.mem_cons, List.not_mem_nil, or_false] at ha
              rcases ha with rfl | rfl <;> simp at harr
          · rw [List.mem_flatMap] at ha
            obtain ⟨et, het, ha⟩ := ha
            simp only [tauSpectra, List.cons_append, List.nil_append, List.mem_cons, List.not_mem_nil, or_false] at ha
            rcases ha with rfl | rfl | rfl | rfl | rfl | rfl <;> simp at harr
        · simp at ha
      · split at ha
        · rw [List.mem_flatMap] at ha
          obtain ⟨e2, he2, ha⟩ := ha
          simp only [List.mem_cons, List.not_mem_nil, or_false] at ha
          rcases ha with rfl | rfl <;> simp at harr
        · simp at ha
  constructor
  · refine ⟨⟨.nc_factors, [0, 0], 1, true⟩, ?_, rfl, rfl⟩
    unfold accesses oscRows ncRows
    rw [if_pos ho]
    refine List.mem_append_right _ (List.mem_append_left _ (List.mem_append_left _ ?_))
    refine List.mem_flatMap.2 ⟨0, List.mem_range.2 (by omega), List.mem_flatMap.2 ⟨0, by simp, List.mem_flatMap.2 ⟨1, ?_, ?_⟩⟩⟩
    · unfold nodes; rw [List.mem_range'_1]; omega
    · exact List.mem_flatMap.2 ⟨0, List.mem_range.2 (by omega), by simp⟩
  · intro a ha harr hprom hk
    have hk := hk hprom
    obtain ⟨rho, f, hidx⟩ := hmem a ha harr
    have hmod := roundUp_mod c.ne
    obtain ⟨v, hv⟩ := Nat.dvd_of_mod_eq_zero hmod
    unfold address at hk
    rw [hidx] at hk
    simp only [extents, List.cons_append, List.nil_append, chainedOffset, chain, List.tail_cons, initialise, hv] at hk
    have : 8 * ((rho * 3 + f) * (4 * v) + 0) = 32 * ((rho * 3 + f) * v) := by
      rw [Nat.add_zero, ← Nat.mul_assoc, Nat.mul_comm 8, Nat.mul_assoc, ← Nat.mul_assoc 8 4 v, Nat.mul_left_comm]
    omega

/-- C75, disagreement: after reading a state with its tables the rows of `nc_factors` are `ne` long instead of padded. If `ne` is not a
multiple of four, then whatever the address, the promise fails for one of the rows. -/
theorem c75_nc_factors_read_violated (c : Cfg) (ho : c.osc = true) (hne : 2 ≤ c.ne) (hr : 1 ≤ c.nrhos) (ht : 1 ≤ c.nTargets)
    (h4 : c.ne % 4 ≠ 0) (base : Nat) :
    ∃ a ∈ accesses c, a.arr = .nc_factors ∧ ¬Kept base (extents c (afterReading c) .nc_factors) a := by
  have hmem : ∀ f, f ∈ [0, 1, 2] → (⟨.nc_factors, [0, f], 1, true⟩ : Access) ∈ accesses c := by
    intro f hf
    unfold accesses oscRows ncRows
    rw [if_pos ho]
    refine List.mem_append_right _ (List.mem_append_left _ (List.mem_append_left _ ?_))
    refine List.mem_flatMap.2 ⟨0, List.mem_range.2 (by omega), List.mem_flatMap.2 ⟨f, hf, List.mem_flatMap.2 ⟨1, ?_, ?_⟩⟩⟩
    · unfold nodes; rw [List.mem_range'_1]; omega
    · exact List.mem_flatMap.2 ⟨0, List.mem_range.2 (by omega), by simp⟩
  by_cases hb : base % 32 = 0
  · refine ⟨_, hmem 1 (by simp), rfl, fun hk => ?_⟩
    have hk := hk rfl
    simp only [address, extents, afterReading, List.cons_append, List.nil_append, chainedOffset, chain, List.tail_cons] at hk
    omega
  · refine ⟨_, hmem 0 (by simp), rfl, fun hk => ?_⟩
    have hk := hk rfl
    simp only [address, extents, afterReading, List.cons_append, List.nil_append, chainedOffset, chain, List.tail_cons] at hk
    omega

/-- C75, disagreement: switching tau regeneration or the Glashow resonance on after the interactions were initialised (after an evolution, or
after reading a state saved without them) leaves `tau_hadlep_decays`, `tau_lep_decays` or `gr_factors` empty: the next evaluation with
oscillations writes outside them. `c` are the settings then, `c₀` those at the first initialisation. -/
theorem c75_switched_on_later_violated (c₀ c : Cfg) (ho : c.osc = true) (hne : 2 ≤ c.ne)
    (h : (c₀.tau = false ∧ c.tau = true) ∨ (c₀.glashow = false ∧ c.gr = true)) :
    ∃ a ∈ accesses c, ¬Inside (extents c (initialise c (some (initialise c₀ none))) a.arr) a := by
  have hn : 1 ∈ nodes c := by unfold nodes; rw [List.mem_range'_1]; omega
  rcases h with ⟨h0, h1⟩ | ⟨h0, h1⟩
  · refine ⟨⟨.tau_decays, [0], 1, false⟩, ?_, fun hin => ?_⟩
    · unfold accesses oscRows
      rw [if_pos ho, if_pos h1]
      refine List.mem_append_right _ (List.mem_append_left _ (List.mem_append_right _ (List.mem_append_right _ ?_)))
      exact List.mem_flatMap.2 ⟨1, hn, by simp⟩
    · have := hin 0 (by decide)
      simp [extents, initialise, h0, InRange] at this
  · refine ⟨⟨.gr_factors, [], 1, false⟩, ?_, fun hin => ?_⟩
    · unfold accesses oscRows
      rw [if_pos ho, if_pos h1]
      refine List.mem_append_right _ (List.mem_append_right _ ?_)
      exact List.mem_flatMap.2 ⟨1, hn, by simp⟩
    · have := hin 0 (by decide)
      simp [extents, initialise, h0, InRange] at this

/-- Five nodes, tau regeneration switched on between two evolutions. -/
example : ∃ a ∈ accesses (demoCfg true),
    ¬Inside (extents (demoCfg true) (initialise (demoCfg true) (some (initialise { demoCfg true with tau := false } none))) a.arr) a :=
  c75_switched_on_later_violated { demoCfg true with tau := false } (demoCfg true) rfl (by decide) (Or.inl ⟨rfl, rfl⟩)

/-- The rows of `nc_factors` with five nodes: at address 48, and at address 64 after reading a state. -/
example : ¬Kept 48 (extents (demoCfg true) (initialise (demoCfg true) none) .nc_factors) ⟨.nc_factors, [1, 2], 4, true⟩ ∧
    ¬Kept 64 (extents (demoCfg true) (afterReading (demoCfg true)) .nc_factors) ⟨.nc_factors, [0, 1], 4, true⟩ := by
  unfold Kept; decide

end Verif.Promise
