import Verif.StateIO.Lemmas

/-!
# What holds of every object between calls

What reading back relies on, kept by every call. Stated apart from histories because the nodes of an atmospheric object are also changed
by other means (they share tables).
-/

namespace Verif.StateIO

open Life

structure Settled (s : Obj) : Prop where
  lo : 3 ≤ s.numneu
  hi : s.numneu ≤ maxDim
  ne : 1 ≤ s.ne
  nrhos : s.nrhos = if s.nt = .both then 2 else 1
  energies : s.ienergy = true → s.energies.length = s.ne
  b1 : s.istate = true → ∀ rho flv, rho < s.nrhos → flv < s.numneu →
    s.b1 rho flv = ⟨s.params.angle, cpFix s.nt s.numneu rho s.params.phase, flv⟩
  dm2 : s.istate = true → s.dm2Key = s.params.dm2
  aligned : Aligned s

theorem run_settled {dflt : Option Xs} {c : Ctor} {tr : List (Op × Status)} {s : Obj} (hr : Run dflt c tr s) : Settled s :=
  ⟨(run_sizes hr).1, (run_sizes hr).2, (run_shape hr).1, (run_shape hr).2, run_energies hr, fun h => (run_keys hr h).b1, run_dm2 hr,
    run_aligned hr⟩

theorem settled_step (dflt : Option Xs) (s : Obj) (op : Op) (h : Settled s) : Settled (step dflt s op).1 := by
  have hfix := step_fixed dflt s op
  refine ⟨by rw [hfix.numneu]; exact h.lo, by rw [hfix.numneu]; exact h.hi, by rw [hfix.ne]; exact h.ne,
    by rw [hfix.nrhos, hfix.nt]; exact h.nrhos, step_energies dflt s op h.lo h.energies, ?_, step_dm2 dflt s op h.lo h.dm2,
    step_aligned dflt s op h.lo h.aligned⟩
  intro hs rho flv h1 h2
  rcases step_classes dflt s op h.lo with ⟨d, b, rfl, hok⟩ | hf | ⟨k1, k2, _, _, _, k6, _⟩
  · simp only [step] at hok h1 h2 ⊢
    rcases hi : setInitial s d b with ⟨s', st⟩
    rw [hi] at hok h1 h2
    simp only at hok
    subst hok
    obtain ⟨t, ht, he, _, _, rfl⟩ := setInitial_ok hi
    simp only [iniH0, iniProj_eq] at h1 h2 ⊢
    rw [if_pos ⟨h1, h2⟩]
  · rw [hf] at hs; simp at hs
  · rw [hfix.nrhos] at h1
    rw [hfix.numneu] at h2
    rw [← k2, ← k1, hfix.nt, hfix.numneu]
    exact h.b1 (by rw [k6]; exact hs) rho flv h1 h2

theorem settled_tables (s : Obj) (t : Option Tables) (h : Settled s) : Settled { s with tables := t } :=
  ⟨h.lo, h.hi, h.ne, h.nrhos, h.energies, h.b1, h.dm2, h.aligned⟩

end Verif.StateIO
