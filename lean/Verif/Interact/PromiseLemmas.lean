import Verif.MArray.Props
import Verif.Interact.UpdateLemmas
import Verif.Interact.Promise

namespace Verif.Promise

open Marr
open Matter (NT)
open Update (le_roundUp)

/-- The parts of an access that matter: its indices are in range before the last one, and the entries fit the row. -/
def Fits (exts : List Nat) (a : Access) : Prop := ∃ pre r, exts = pre ++ [r] ∧ InRange pre a.idx ∧ a.len ≤ r

theorem Fits.inside {exts : List Nat} {a : Access} (h : Fits exts a) : Inside exts a := by
  obtain ⟨pre, r, rfl, h1, h2⟩ := h
  intro k hk
  exact List.rel_append h1 (List.Forall₂.cons (by omega) List.Forall₂.nil)

theorem mem_nodes {c : Cfg} {e : Nat} (h : e ∈ nodes c) : 1 ≤ e ∧ e < c.ne := by
  unfold nodes at h
  rw [List.mem_range'_1] at h
  omega

theorem inRange_nil : InRange [] [] := List.Forall₂.nil

theorem inRange_cons {e i : Nat} {es is : List Nat} (h : i < e) (ht : InRange es is) : InRange (e :: es) (i :: is) :=
  List.Forall₂.cons h ht

theorem Valid.two {c : Cfg} (hv : Valid c) (ht : c.tau = true) : c.nrhos = 2 := by rw [hv.nrhos, if_pos (hv.tau ht)]

theorem Valid.grRho_lt {c : Cfg} (hv : Valid c) : c.grRho < c.nrhos := by
  have := hv.nrhos
  unfold Cfg.grRho
  split
  · rename_i h; rw [if_pos h] at this; omega
  · rename_i h; rw [if_neg h] at this; omega

theorem grLengths_fit {c : Cfg} (hv : Valid c) (m : Sized) : ∀ a ∈ grLengths c, Fits (extents c m a.arr) a := by
  have hle := le_roundUp c.ne
  have hg := hv.grRho_lt
  have h3 := hv.flavours
  unfold grLengths
  intro a ha
  split at ha
  · simp only [List.mem_cons, List.not_mem_nil, or_false] at ha
    rcases ha with rfl | rfl | rfl
    · exact ⟨[], _, rfl, inRange_nil, hle⟩
    · exact ⟨[], _, rfl, inRange_nil, hle⟩
    · exact ⟨[c.nrhos, c.numneu], _, rfl, inRange_cons hg (inRange_cons (by omega) inRange_nil), hle⟩
  · simp at ha

theorem ncRows_fit {c : Cfg} (hv : Valid c) (m : Sized) (out : Arr)
    (hout : ∃ r, extents c m out = [c.nrhos, 3, r] ∧ c.ne ≤ r) : ∀ a ∈ ncRows c out, Fits (extents c m a.arr) a := by
  have hle := le_roundUp c.ne
  have h3 := hv.flavours
  obtain ⟨r, hr, hrr⟩ := hout
  unfold ncRows
  intro a ha
  rw [List.mem_flatMap] at ha
  obtain ⟨rho, hrho, ha⟩ := ha
  rw [List.mem_flatMap] at ha
  obtain ⟨f, hf, ha⟩ := ha
  rw [List.mem_flatMap] at ha
  obtain ⟨e2, he2, ha⟩ := ha
  rw [List.mem_flatMap] at ha
  obtain ⟨trg, htrg, ha⟩ := ha
  rw [List.mem_range] at hrho htrg
  have hf3 : f < 3 := by simp at hf; omega
  have he := mem_nodes he2
  simp only [List.mem_cons, List.not_mem_nil, or_false] at ha
  rcases ha with rfl | rfl
  · exact ⟨[c.nrhos, 3], r, hr, inRange_cons hrho (inRange_cons hf3 inRange_nil), by dsimp only; omega⟩
  · exact ⟨[c.nTargets, c.nrhos, c.numneu, c.ne], _, rfl,
      inRange_cons htrg (inRange_cons hrho (inRange_cons (by omega) (inRange_cons he.2 inRange_nil))), by dsimp only; omega⟩

theorem tauProduction_fit {c : Cfg} (hv : Valid c) (ht : c.tau = true) (m : Sized) :
    ∀ a ∈ tauProduction c, Fits (extents c m a.arr) a := by
  have hle := le_roundUp c.ne
  have h3 := hv.flavours
  have h2 := hv.two ht
  unfold tauProduction
  intro a ha
  rcases List.mem_cons.1 ha with rfl | ha
  · exact ⟨[], _, rfl, inRange_nil, hle⟩
  · rw [List.mem_flatMap] at ha
    obtain ⟨en, hen, ha⟩ := ha
    rw [List.mem_flatMap] at ha
    obtain ⟨trg, htrg, ha⟩ := ha
    rw [List.mem_range] at htrg
    have he := mem_nodes hen
    simp only [List.mem_cons, List.not_mem_nil, or_false] at ha
    rcases ha with rfl | rfl <;>
    exact ⟨[c.nTargets, c.nrhos, c.numneu, c.ne], _, rfl,
      inRange_cons htrg (inRange_cons (by omega) (inRange_cons (by omega) (inRange_cons he.2 inRange_nil))), by dsimp only; omega⟩

theorem tauSpectra_fit {c : Cfg} (hv : Valid c) (ht : c.tau = true) (m : Sized) (et : Nat) (he : 1 ≤ et ∧ et < c.ne) :
    ∀ a ∈ tauSpectra et, Fits (extents c m a.arr) a := by
  have hle := le_roundUp c.ne
  have h2 := hv.two ht
  unfold tauSpectra
  intro a ha
  simp only [List.mem_cons, List.not_mem_nil, or_false] at ha
  rcases ha with rfl | rfl | rfl | rfl <;>
  exact ⟨[c.nrhos, c.ne], _, rfl, inRange_cons (by omega) (inRange_cons he.2 inRange_nil), by dsimp only; omega⟩

theorem flavor_fit {c : Cfg} (m : Sized) (rho a len : Nat) (p : Bool) (hr : rho < c.nrhos) (ha : a < 3) (hl : len ≤ Cache.roundUp c.ne) :
    Fits (extents c m .flavor_factors) ⟨.flavor_factors, [rho, a], len, p⟩ :=
  ⟨[c.nrhos, 3], _, rfl, inRange_cons hr (inRange_cons ha inRange_nil), hl⟩

theorem noOscRows_fit {c : Cfg} (hv : Valid c) (m : Sized) : ∀ a ∈ noOscRows c, Fits (extents c m a.arr) a := by
  have hle := le_roundUp c.ne
  have hg := hv.grRho_lt
  unfold noOscRows
  intro a ha
  simp only [List.mem_append] at ha
  rcases ha with ((ha | ha) | ha) | ha
  · exact ncRows_fit hv m _ ⟨_, rfl, hle⟩ a ha
  · by_cases ht : c.tau = true
    · rw [if_pos ht] at ha
      have h2 := hv.two ht
      simp only [List.mem_append] at ha
      rcases ha with (ha | ha) | ha
      · exact tauProduction_fit hv ht m a ha
      · rw [List.mem_flatMap] at ha
        obtain ⟨et, het, ha⟩ := ha
        have he := mem_nodes het
        simp only [List.mem_append] at ha
        rcases ha with ha | ha
        · exact tauSpectra_fit hv ht m et he a ha
        · simp only [List.mem_cons, List.not_mem_nil, or_false] at ha
          rcases ha with rfl | rfl <;> exact flavor_fit m _ _ _ _ (by omega) (by omega) (by omega)
      · simp only [List.mem_cons, List.not_mem_nil, or_false] at ha
        rcases ha with rfl | rfl | rfl | rfl <;> exact flavor_fit m _ _ _ _ (by omega) (by omega) (by omega)
    · rw [if_neg ht] at ha; simp at ha
  · split at ha
    · simp only [List.mem_append, List.mem_cons] at ha
      rcases ha with (rfl | ha) | ha
      · exact ⟨[], _, rfl, inRange_nil, hle⟩
      · rw [List.mem_flatMap] at ha
        obtain ⟨e2, he2, ha⟩ := ha
        have he := mem_nodes he2
        simp only [List.mem_cons, List.not_mem_nil, or_false] at ha
        subst ha
        exact ⟨[c.ne], _, rfl, inRange_cons he.2 inRange_nil, by dsimp only; omega⟩
      · simp only [List.not_mem_nil, or_false] at ha
        rcases ha with rfl | rfl | rfl <;> exact flavor_fit m _ _ _ _ hg (by omega) hle
    · simp at ha
  · rw [List.mem_flatMap] at ha
    obtain ⟨rho, hrho, ha⟩ := ha
    rw [List.mem_flatMap] at ha
    obtain ⟨f, hf, ha⟩ := ha
    rw [List.mem_range] at hrho
    have hf3 : f < 3 := by simp at hf; omega
    simp only [List.mem_cons, List.not_mem_nil, or_false] at ha
    subst ha
    exact flavor_fit m _ _ _ _ hrho hf3 hle

structure Enough (c : Cfg) (m : Sized) : Prop where
  row : c.ne ≤ m.row
  tau : c.tau = true → m.tau = true
  gr : c.gr = true → m.glashow = true

theorem Fresh.enough {c : Cfg} {m : Sized} (h : Fresh c m) : Enough c m := by
  have hg : c.gr = true → c.glashow = true := by unfold Cfg.gr; intro h; simp at h; exact h.1
  rcases h with rfl | rfl
  · exact ⟨le_roundUp _, fun h => h, hg⟩
  · exact ⟨Nat.le_refl _, fun h => h, hg⟩

theorem oscRows_fit {c : Cfg} (hv : Valid c) (m : Sized) (hm : Enough c m) : ∀ a ∈ oscRows c, Fits (extents c m a.arr) a := by
  have hle := le_roundUp c.ne
  have hr := hm.row
  unfold oscRows
  intro a ha
  simp only [List.mem_append] at ha
  rcases ha with (ha | ha) | ha
  · exact ncRows_fit hv m _ ⟨_, rfl, hm.row⟩ a ha
  · by_cases ht : c.tau = true
    · rw [if_pos ht] at ha
      simp only [List.mem_append] at ha
      rcases ha with ha | ha
      · exact tauProduction_fit hv ht m a ha
      · rw [List.mem_flatMap] at ha
        obtain ⟨et, het, ha⟩ := ha
        have he := mem_nodes het
        simp only [List.mem_append] at ha
        rcases ha with ha | ha
        · exact tauSpectra_fit hv ht m et he a ha
        · simp only [List.mem_cons, List.not_mem_nil, or_false] at ha
          rcases ha with rfl | rfl <;>
          exact ⟨[2], m.row, by simp [extents, hm.tau ht], inRange_cons (by omega) inRange_nil, by dsimp only; omega⟩
    · rw [if_neg ht] at ha; simp at ha
  · split at ha
    · rw [List.mem_flatMap] at ha
      obtain ⟨e2, he2, ha⟩ := ha
      have he := mem_nodes he2
      simp only [List.mem_cons, List.not_mem_nil, or_false] at ha
      rcases ha with rfl | rfl
      · exact ⟨[c.ne], _, rfl, inRange_cons he.2 inRange_nil, by dsimp only; omega⟩
      · exact ⟨[], m.row, by simp [extents, hm.gr (by assumption)], inRange_nil, by dsimp only; omega⟩
    · simp at ha

theorem accesses_fit {c : Cfg} (hv : Valid c) (m : Sized) (hm : Enough c m) : ∀ a ∈ accesses c, Fits (extents c m a.arr) a := by
  unfold accesses
  intro a ha
  rcases List.mem_append.1 ha with ha | ha
  · exact grLengths_fit hv m a ha
  · split at ha
    · exact oscRows_fit hv m hm a ha
    · exact noOscRows_fit hv m a ha

/-- A row starts at a multiple of its length. -/
theorem chain_row (pre idx : List Nat) (r off : Nat) (h : idx.length = pre.length) :
    ∃ q, chain (pre ++ [r]) (idx ++ [0]) off = q * r := by
  induction pre generalizing idx off with
  | nil =>
    cases idx with
    | nil => exact ⟨off, by simp [chain]⟩
    | cons i is => simp at h
  | cons e es ih =>
    cases idx with
    | nil => simp at h
    | cons i is =>
      simp only [List.cons_append, chain]
      exact ih is _ (by simpa using h)

theorem offset_row (pre idx : List Nat) (r : Nat) (h : idx.length = pre.length) :
    ∃ q, chainedOffset (pre ++ [r]) (idx ++ [0]) = q * r := by
  cases pre with
  | nil =>
    cases idx with
    | nil => exact ⟨0, by simp [chainedOffset, chain]⟩
    | cons i is => simp at h
  | cons e es =>
    cases idx with
    | nil => simp at h
    | cons i is =>
      simp only [List.cons_append, chainedOffset, List.tail_cons]
      exact chain_row es is r i (by simpa using h)

theorem roundUp_mod (n : Nat) : Cache.roundUp n % 4 = 0 := by unfold Cache.roundUp; split <;> omega

theorem row_aligned (c : Cfg) (m : Sized) (a : Arr) (ha : usesAligned a = true) :
    ∃ pre r, extents c m a = pre ++ [r] ∧ r % 4 = 0 := by
  cases a <;> first
    | exact ⟨[_, _, _, _], _, rfl, roundUp_mod _⟩
    | exact ⟨[_, _], _, rfl, roundUp_mod _⟩
    | exact ⟨[_], _, rfl, roundUp_mod _⟩
    | exact ⟨[], _, rfl, roundUp_mod _⟩
    | simp [usesAligned] at ha

end Verif.Promise
