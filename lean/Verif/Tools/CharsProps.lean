import Verif.Tools.CharsLemmas
import Verif.Tools.TextProps
import Mathlib.Tactic.Linarith
import Mathlib.Tactic.FieldSimp
import Mathlib.Tactic.Ring

/-!
# C117: the characters of a text table
-/

namespace Verif.Chars

open Verif.Tools (Tok dec15)

/-! ## Numbers -/

private theorem exponent_eq (e : Option Exponent) (he : ∀ x, e = some x → x.ds ≠ []) (cs : List Char) (hs : Stop cs) :
    takeExponent (exponentChars e ++ cs) =
      some (exponentValue e, cs) := by
  cases e with
  | none =>
    cases cs with
    | nil => rfl
    | cons c cs =>
      have := hs c rfl
      simp [takeExponent, exponentChars, exponentValue, this.2.2.1, this.2.2.2]
  | some e =>
    have hne := he e rfl
    simp only [exponentChars, Exponent.chars, List.cons_append, takeExponent, List.append_assoc]
    rw [if_pos (by cases e.capital <;> simp)]
    have hd : takeSign (signChars e.sign ++ (e.ds.map digitChar ++ cs)) = (e.sign == some true, e.ds.map digitChar ++ cs) := by
      apply takeSign_eq
      intro _ c hc
      cases hds : e.ds with
      | nil => exact absurd hds hne
      | cons d ds =>
        rw [hds] at hc
        simp only [List.map_cons, List.cons_append, List.head?_cons, Option.some.injEq] at hc
        subst hc
        exact ⟨(digitChar_ne d).1, (digitChar_ne d).2.1⟩
    rw [hd]
    simp only [takeDigits_eq e.ds cs (fun c hc => (hs c hc).1), hne, if_false, natVal_eq, exponentValue, Exponent.value]
    by_cases h : e.sign = some true <;> simp [h]

private theorem stop_exponent (e : Option Exponent) (cs : List Char) (hs : Stop cs) (c : Char)
    (hc : (exponentChars e ++ cs).head? = some c) : digit? c = none ∧ c ≠ '.' := by
  cases e with
  | none => exact ⟨(hs c hc).1, (hs c hc).2.1⟩
  | some e =>
    simp only [exponentChars, Exponent.chars, List.cons_append, List.head?_cons, Option.some.injEq] at hc
    subst hc
    cases e.capital <;> decide

private theorem fraction_eq (f : Option (List (Fin 10))) (cs : List Char)
    (hs : ∀ c, cs.head? = some c → digit? c = none ∧ c ≠ '.') :
    takeFraction (fractionChars f ++ cs) = (f.getD [], cs) := by
  cases f with
  | none =>
    cases cs with
    | nil => rfl
    | cons c cs => simp [takeFraction, fractionChars, (hs c rfl).2]
  | some f =>
    simp only [fractionChars, List.cons_append, takeFraction, if_true, Option.getD_some]
    exact takeDigits_eq f cs fun c hc => (hs c hc).1

private theorem value_eq (s : Option Bool) (w f : List (Fin 10)) (e : Int) :
    (if (s == some true) = true then (-1 : Rat) else 1) * (natVal (w ++ f) : Rat) * (10 : Rat) ^ (e - (f.length : Int)) =
      signValue s * ((decimalValue w : Rat) + (decimalValue f : Rat) / 10 ^ f.length) * (10 : Rat) ^ e := by
  rw [natVal_eq, decimalValue_append, zpow_sub₀ (by norm_num), zpow_natCast]
  unfold signValue
  have h10 : (10 : Rat) ^ f.length ≠ 0 := by positivity
  by_cases hs : s = some true
  · simp only [hs, beq_self_eq_true, if_true]; push_cast; field_simp
  · simp only [beq_iff_eq, hs, if_false]; push_cast; field_simp

/-- Every decimal number, in whichever way it is written, is read as its value and nothing more is taken. -/
theorem c117_number (d : Decimal) (hd : d.Ok) (cs : List Char) (hs : Stop cs) :
    number (d.chars ++ cs) = some (d.value, cs) := by
  obtain ⟨hm, he⟩ := hd
  have hfr : ∀ c, (fractionChars d.fraction ++
      (exponentChars d.exponent ++ cs)).head? = some c → digit? c = none := by
    intro c hc
    cases hf : d.fraction with
    | none => rw [hf] at hc; exact (stop_exponent d.exponent cs hs c hc).1
    | some f =>
      rw [hf] at hc
      simp only [fractionChars, List.cons_append, List.head?_cons, Option.some.injEq] at hc
      subst hc; decide
  have hsign : takeSign (d.chars ++ cs) = (d.sign == some true, d.whole.map digitChar ++
      (fractionChars d.fraction ++
      (exponentChars d.exponent ++ cs))) := by
    unfold Decimal.chars
    simp only [List.append_assoc]
    apply takeSign_eq
    intro _ c hc
    cases hw : d.whole with
    | nil =>
      rw [hw] at hc
      rcases hm with hm | ⟨f, hf, _⟩
      · exact absurd hw hm
      · simp only [hf, fractionChars, List.map_nil, List.nil_append, List.cons_append, List.head?_cons, Option.some.injEq] at hc
        subst hc; decide
    | cons x w =>
      rw [hw] at hc
      simp only [List.map_cons, List.cons_append, List.head?_cons, Option.some.injEq] at hc
      subst hc
      exact ⟨(digitChar_ne x).1, (digitChar_ne x).2.1⟩
  unfold number
  simp only [hsign, takeDigits_eq d.whole _ hfr, fraction_eq d.fraction _ (stop_exponent d.exponent cs hs),
    exponent_eq d.exponent he cs hs]
  rw [if_neg]
  · simp only [Option.map_some, value_eq, Option.some.injEq, Prod.mk.injEq, and_true]
    unfold Decimal.value
    cases d.fraction <;> simp [decimalValue, fractionValue]
  · rintro ⟨h1, h2⟩
    rcases hm with hm | ⟨f, hf, hne⟩
    · exact hm h1
    · rw [hf] at h2; exact hne h2

/-- Whatever is taken is a decimal number, its value is the one reported, and what is left does not continue its digits. -/
theorem c117_only_numbers (cs : List Char) (v : Rat) (rest : List Char) (h : number cs = some (v, rest)) :
    ∃ d : Decimal, d.Ok ∧ cs = d.chars ++ rest ∧ v = d.value ∧ ∀ c, rest.head? = some c → digit? c = none := by
  unfold number at h
  simp only at h
  split at h
  · exact absurd h (by simp)
  next hne =>
    obtain ⟨s, hcs, hs1, _⟩ := takeSign_sound cs
    obtain ⟨hw, hwn⟩ := takeDigits_sound (takeSign cs).2
    revert h hne hs1
    generalize (takeSign cs).1 = neg
    generalize hW : (takeDigits (takeSign cs).2) = W at hw hwn ⊢
    intro h hne hs1
    subst hs1
    rw [hw] at hcs
    clear hw hW
    -- the fraction
    obtain ⟨f, hf, hfd, hfn⟩ : ∃ f : Option (List (Fin 10)),
        W.2 = fractionChars f ++ (takeFraction W.2).2 ∧
        (takeFraction W.2).1 = f.getD [] ∧ ∀ c, (takeFraction W.2).2.head? = some c → digit? c = none := by
      cases hW2 : W.2 with
      | nil => exact ⟨none, by simp [takeFraction, fractionChars]⟩
      | cons c cs' =>
        rw [takeFraction]
        by_cases hc : c = '.'
        · subst hc
          obtain ⟨h1, h2⟩ := takeDigits_sound cs'
          refine ⟨some (takeDigits cs').1, ?_, by simp, by simpa using h2⟩
          simp only [fractionChars, if_true, List.cons_append, List.cons.injEq, true_and]
          exact h1
        · refine ⟨none, by simp [fractionChars, hc], by simp [hc], ?_⟩
          simp only [hc, if_false]
          rw [← hW2]; exact hwn
    revert h hne
    generalize takeFraction W.2 = F at hf hfd hfn ⊢
    intro hne h
    rw [Option.map_eq_some_iff] at h
    obtain ⟨e, he, hv⟩ := h
    obtain ⟨rfl, rfl⟩ := Prod.mk.inj hv
    obtain ⟨x, hx, hxv, hxo, hxn⟩ : ∃ x : Option Exponent,
        F.2 = exponentChars x ++ e.2 ∧
        e.1 = exponentValue x ∧ (∀ y, x = some y → y.ds ≠ []) ∧
        ∀ c, e.2.head? = some c → digit? c = none := by
      cases hF2 : F.2 with
      | nil =>
        rw [hF2] at he
        simp only [takeExponent, Option.some.injEq] at he
        subst he
        exact ⟨none, by simp [exponentChars, exponentValue]⟩
      | cons c cs' =>
        rw [hF2] at he hfn
        simp only [takeExponent] at he
        split at he
        next hc =>
          split at he
          · exact absurd he (by simp)
          next hds =>
            obtain ⟨s', hs', hs1', _⟩ := takeSign_sound cs'
            obtain ⟨hd, hdn⟩ := takeDigits_sound (takeSign cs').2
            cases he
            refine ⟨some ⟨c == 'E', s', (takeDigits (takeSign cs').2).1⟩, ?_, ?_, ?_, hdn⟩
            · simp only [exponentChars, Exponent.chars, List.cons_append, List.append_assoc, List.cons.injEq]
              refine ⟨?_, ?_⟩
              · rcases hc with rfl | rfl <;> simp
              · rw [← hd]; exact hs'
            · simp only [exponentValue, Exponent.value, hs1', natVal_eq, beq_iff_eq]
            · rintro y ⟨⟩; exact hds
        · cases he
          exact ⟨none, by simp [exponentChars], rfl, by simp, hfn⟩
    refine ⟨⟨s, W.1, f, x⟩, ⟨?_, hxo⟩, ?_, ?_, hxn⟩
    · by_cases hw0 : W.1 = []
      · right
        cases hf0 : f with
        | none => rw [hf0] at hfd; exact absurd ⟨hw0, hfd⟩ hne
        | some g =>
          refine ⟨g, rfl, fun hg => hne ⟨hw0, ?_⟩⟩
          rw [hfd, hf0, hg]; rfl
      · exact Or.inl hw0
    · rw [hcs, hf, hx]
      simp only [Decimal.chars, List.append_assoc]
    · rw [hfd, hxv, value_eq]
      unfold Decimal.value
      cases f <;> simp [decimalValue, fractionValue]

/-! ## Rows and files -/

theorem blank_not (c : Char) (h : blank c = true) :
    digit? c = none ∧ c ≠ '.' ∧ c ≠ 'e' ∧ c ≠ 'E' ∧ c ≠ '+' ∧ c ≠ '-' := by
  refine ⟨?_, ?_, ?_, ?_, ?_, ?_⟩
  · unfold digit?
    rw [dif_neg]
    rintro ⟨h1, h2⟩
    simp only [blank, Bool.or_eq_true, beq_iff_eq, Bool.and_eq_true, decide_eq_true_eq] at h
    rcases h with rfl | ⟨_, h⟩
    · revert h1; decide
    · omega
  all_goals
    rintro rfl
    revert h
    decide

theorem row_none {rd : Rat → Option Rat} {cs : List Char} (h : get rd cs = none) : row rd cs = [] := by
  rw [row]
  split
  · rfl
  next r hr => rw [h] at hr; exact absurd hr (by simp)

theorem row_some {rd : Rat → Option Rat} {cs : List Char} {r : Rat × List Char} (h : get rd cs = some r) :
    row rd cs = r.1 :: row rd r.2 := by
  rw [row]
  split
  next hr => rw [h] at hr; exact absurd hr (by simp)
  next r' hr =>
    rw [h] at hr
    cases hr
    rfl

private theorem skip (b cs : List Char) (hb : ∀ c ∈ b, blank c = true)
    (hc : ∀ c, cs.head? = some c → blank c = false) : (b ++ cs).dropWhile blank = cs := by
  induction b with
  | nil =>
    cases cs with
    | nil => rfl
    | cons c cs => rw [List.nil_append, List.dropWhile_cons, hc c rfl]; simp
  | cons c b ih =>
    rw [List.cons_append, List.dropWhile_cons, hb c (by simp), if_pos rfl]
    exact ih fun c hc => hb c (by simp [hc])

theorem decimal_head (d : Decimal) (hd : d.Ok) :
    ∃ c cs, d.chars = c :: cs ∧ (c = '+' ∨ c = '-' ∨ c = '.' ∨ ∃ x, c = digitChar x) := by
  unfold Decimal.chars
  rcases hs : d.sign with _ | _ | _
  · cases hw : d.whole with
    | nil =>
      rcases hd.1 with h | ⟨f, hf, _⟩
      · exact absurd hw h
      · rw [hf]; exact ⟨'.', f.map digitChar ++ exponentChars d.exponent, by simp [signChars, fractionChars], by simp⟩
    | cons x w =>
      exact ⟨digitChar x, w.map digitChar ++ fractionChars d.fraction ++ exponentChars d.exponent,
        by simp [signChars], Or.inr (Or.inr (Or.inr ⟨x, rfl⟩))⟩
  · exact ⟨'+', d.whole.map digitChar ++ fractionChars d.fraction ++ exponentChars d.exponent,
        by simp [signChars], by simp⟩
  · exact ⟨'-', d.whole.map digitChar ++ fractionChars d.fraction ++ exponentChars d.exponent,
        by simp [signChars], by simp⟩

private theorem decimal_not_blank (d : Decimal) (hd : d.Ok) (tail : List Char) (c : Char)
    (hc : (d.chars ++ tail).head? = some c) : blank c = false := by
  obtain ⟨c', cs, h, hcase⟩ := decimal_head d hd
  rw [h, List.cons_append, List.head?_cons, Option.some.injEq] at hc
  subst hc
  rcases hcase with rfl | rfl | rfl | ⟨x, rfl⟩
  · decide
  · decide
  · decide
  · exact (digitChar_ne x).2.2.2.2.2

/-- The next number of a line, when there is one. -/
theorem get_decimal (rd : Rat → Option Rat) (b : List Char) (hb : ∀ c ∈ b, blank c = true) (d : Decimal) (hd : d.Ok)
    (tail : List Char) (ht : Stop tail) : get rd (b ++ d.chars ++ tail) = (rd d.value).map fun v => (v, tail) := by
  unfold get
  rw [List.append_assoc, skip b _ hb (decimal_not_blank d hd tail), c117_number d hd tail ht]
  rfl

/-- Nothing is taken of what is not the beginning of a number. -/
theorem get_other (rd : Rat → Option Rat) (b : List Char) (hb : ∀ c ∈ b, blank c = true) (s : Option Bool)
    (rest : List Char) (hne : ∀ c, (signChars s ++ rest).head? = some c → blank c = false)
    (hr : ∀ c, rest.head? = some c → digit? c = none ∧ c ≠ '.' ∧ (s = none → c ≠ '+' ∧ c ≠ '-')) :
    get rd (b ++ (signChars s ++ rest)) = none := by
  unfold get
  rw [skip b _ hb hne]
  have h1 := takeSign_eq s rest fun hs c hc => (hr c hc).2.2 hs
  have h2 := takeDigits_eq [] rest fun c hc => (hr c hc).1
  have h3 : takeFraction rest = ([], rest) := by
    cases rest with
    | nil => rfl
    | cons c r => simp [takeFraction, (hr c rfl).2.1]
  unfold number
  simp only [List.map_nil, List.nil_append] at h2
  simp [h1, h2, h3]

private theorem get_word_other (rd : Rat → Option Rat) (b : List Char) (hb : ∀ c ∈ b, blank c = true) (s : Option Bool)
    (rest : List Char) (hok : (Word.other s rest).Ok) (tail : List Char)
    (ht : ∀ c, tail.head? = some c → blank c = true) :
    get rd (b ++ (Word.other s rest).chars ++ tail) = none := by
  obtain ⟨hne, hnb, hr⟩ := hok
  have := get_other rd b hb s (rest ++ tail) ?_ ?_
  · rw [← this]; simp [Word.chars]
  · intro c hc
    rcases s with _ | _ | _
    · cases rest with
      | nil => exact absurd rfl hne
      | cons c' r =>
        simp only [signChars, List.nil_append, List.cons_append, List.head?_cons, Option.some.injEq] at hc
        subst hc
        exact Bool.eq_false_iff.2 fun hb' => hnb _ (by simp) ((blank_iff _).1 hb')
    · simp only [signChars, List.cons_append, List.head?_cons, Option.some.injEq] at hc; subst hc; decide
    · simp only [signChars, List.cons_append, List.head?_cons, Option.some.injEq] at hc; subst hc; decide
  · intro c hc
    cases rest with
    | nil =>
      have := blank_not c (ht c hc)
      exact ⟨this.1, this.2.1, fun _ => this.2.2.2.2⟩
    | cons c' r => exact hr c hc

private theorem row_word (rd : Rat → Option Rat) (b : List Char) (hb : ∀ c ∈ b, blank c = true) (w : Word) (hw : w.Ok)
    (tail : List Char) (ht : ∀ c, tail.head? = some c → blank c = true) (toks : List Tok)
    (h : row rd tail = Tools.extract id toks) :
    row rd (b ++ w.chars ++ tail) = Tools.extract id (w.tok rd :: toks) := by
  cases w with
  | num d =>
    have hs : Stop tail := fun c hc => by
      have := blank_not c (ht c hc)
      exact ⟨this.1, this.2.1, this.2.2.1, this.2.2.2.1⟩
    have hg := get_decimal rd b hb d hw tail hs
    show row rd (b ++ d.chars ++ tail) = _
    cases hv : rd d.value with
    | none =>
      rw [hv] at hg
      rw [row_none hg]
      simp only [Word.tok, hv, Tools.extract]
    | some v =>
      rw [hv] at hg
      rw [row_some hg]
      simp only [Word.tok, hv, Tools.extract, h, id]
  | other s rest =>
    rw [row_none (get_word_other rd b hb s rest hw tail ht)]
    simp only [Word.tok, Tools.extract]

/-- A line with the given words, however they are separated, gives the numbers that the words are, up to the first word that
is not one. -/
theorem c117_line (rd : Rat → Option Rat) (cs : List Char) (ws : List Word) (h : Spelled cs ws)
    (hok : ∀ w ∈ ws, w.Ok) : row rd cs = Tools.extract id (ws.map (Word.tok rd)) := by
  induction h with
  | blanks b hb =>
    replace hb := fun c hc => (blank_iff c).2 (hb c hc)
    rw [row_none, List.map_nil]
    · rfl
    · have hs : b.dropWhile blank = [] := by simpa using skip b [] hb (by simp)
      unfold get
      rw [hs]
      rfl
  | last b hb w =>
    replace hb := fun c hc => (blank_iff c).2 (hb c hc)
    have := row_word rd b hb w (hok w (by simp)) [] (by simp) [] (row_none rfl)
    rw [List.append_nil] at this
    rw [this]; rfl
  | word b hb w c hc cs ws h ih =>
    replace hb := fun c hc => (blank_iff c).2 (hb c hc)
    replace hc := (blank_iff c).2 hc
    have htail : row rd (c :: cs) = row rd cs := by
      have hg : get rd (c :: cs) = get rd cs := by
        unfold get
        rw [List.dropWhile_cons, hc, if_pos rfl]
      cases hr : get rd cs with
      | none => rw [row_none hr, row_none (hg.trans hr)]
      | some r => rw [row_some hr, row_some (hg.trans hr)]
    rw [List.map_cons]
    apply row_word rd b hb w (hok w (by simp)) (c :: cs)
    · intro x hx; cases hx; exact hc
    · rw [htail]; exact ih fun w hw => hok w (by simp [hw])

private theorem readLines_congr (rd rd' : Rat → Rat) (a b : List Tools.Line)
    (h : a.map (Tools.extract rd) = b.map (Tools.extract rd')) (s : Tools.ReadState) :
    Tools.readLines rd s a = Tools.readLines rd' s b := by
  induction a generalizing b s with
  | nil =>
    cases b with
    | nil => rfl
    | cons => simp at h
  | cons l a ih =>
    cases b with
    | nil => simp at h
    | cons l' b =>
      simp only [List.map_cons, List.cons.injEq] at h
      have h1 : Tools.readLine rd s l = Tools.readLine rd' s l' := by simp only [Tools.readLine, h.1]
      rw [Tools.readLines, Tools.readLines, h1]
      cases Tools.readLine rd' s l' with
      | ok s => exact ih b h.2 s
      | throws => rfl
      | ub => rfl

private theorem quickread_congr (rd rd' : Rat → Rat) (a b : List Tools.Line)
    (h : a.map (Tools.extract rd) = b.map (Tools.extract rd')) : Tools.quickread rd a = Tools.quickread rd' b := by
  unfold Tools.quickread
  rw [readLines_congr rd rd' a b h]

private theorem extract_num (l : List Rat) : Tools.extract id (l.map Tok.num) = l := by
  induction l with
  | nil => rfl
  | cons a l ih => rw [List.map_cons, Tools.extract, ih]; rfl

private theorem linesFrom_line (cur l cs : List Char) (hl : '\n' ∉ l) :
    linesFrom cur (l ++ '\n' :: cs) = (cur ++ l) :: linesFrom [] cs := by
  induction l generalizing cur with
  | nil => simp [linesFrom]
  | cons c l ih =>
    simp only [List.mem_cons, not_or] at hl
    rw [List.cons_append, linesFrom, if_neg (fun h => hl.1 h.symm), ih _ hl.2]
    simp

theorem lines_join (ls : List (List Char)) (hl : ∀ l ∈ ls, '\n' ∉ l) (cs : List Char) :
    lines (ls.flatMap (fun l => l ++ ['\n']) ++ cs) = ls ++ lines cs := by
  induction ls with
  | nil => rfl
  | cons l ls ih =>
    have h1 := linesFrom_line [] l (ls.flatMap (fun l => l ++ ['\n']) ++ cs) (hl l (by simp))
    rw [List.nil_append] at h1
    have h2 := ih fun l hm => hl l (by simp [hm])
    unfold lines at h2 ⊢
    rw [List.cons_append, ← h2, ← h1]
    simp

private theorem quickread_of_rows (rd : Rat → Option Rat) (text : List Char) (rd' : Rat → Rat) (f : List Tools.Line)
    (h : (lines text).map (row rd) = f.map (Tools.extract rd')) : quickread rd text = Tools.quickread rd' f := by
  unfold quickread
  apply quickread_congr
  rw [← h, List.map_map]
  apply List.map_congr_left
  intro l _
  exact extract_num _

/-- A file of lines with the given words is read as the table of the numbers that the words are, whichever blanks are between
them and however long (also carriage returns at the ends of the lines): reading characters is reading tokens. -/
theorem c117_file (rd : Rat → Option Rat) (ls : List (List Char × List Word)) (hn : ∀ l ∈ ls, '\n' ∉ l.1)
    (hs : ∀ l ∈ ls, Spelled l.1 l.2) (hok : ∀ l ∈ ls, ∀ w ∈ l.2, w.Ok) :
    quickread rd (ls.flatMap fun l => l.1 ++ ['\n']) = Tools.quickread id (ls.map fun l => l.2.map (Word.tok rd)) := by
  apply quickread_of_rows
  have := lines_join (ls.map (·.1)) (by simpa using hn) []
  rw [List.append_nil, List.flatMap_map] at this
  rw [this, show lines [] = [] from rfl, List.append_nil, List.map_map, List.map_map]
  apply List.map_congr_left
  intro l hl
  exact c117_line rd l.1 l.2 (hs l hl) (hok l hl)

/-- The end of the last line may be missing. -/
theorem c117_last_line (rd : Rat → Option Rat) (text : List Char) (c : Char) (hc : c ≠ '\n') :
    quickread rd (text ++ [c, '\n']) = quickread rd (text ++ [c]) := by
  have h : ∀ (text cur : List Char), linesFrom cur (text ++ [c, '\n']) = linesFrom cur (text ++ [c]) := by
    intro text
    induction text with
    | nil => intro cur; simp [linesFrom, hc]
    | cons x text ih =>
      intro cur
      simp only [List.cons_append, linesFrom]
      by_cases hx : x = '\n'
      · rw [if_pos hx, if_pos hx, ih]
      · rw [if_neg hx, if_neg hx, ih]
  unfold quickread lines
  rw [h]

/-- Reading never goes past the end of a row, whatever the file contains. -/
theorem c117_safe (rd : Rat → Option Rat) (text : List Char) : quickread rd text ≠ .ub :=
  (Tools.c28_rejects_ragged id _).1

/-! ## Printing -/

/-- What is printed for a number is a decimal number, and its value is the number rounded to 15 digits. -/
theorem c117_printed (x : Rat) : ∃ d : Decimal, d.Ok ∧ print15 x = d.chars ∧ d.value = dec15 x := by
  by_cases hx : x = 0
  · refine ⟨⟨none, [0], none, none⟩, ⟨Or.inl (by simp), by simp⟩, ?_, ?_⟩
    · rw [print15, if_pos hx]; decide
    · subst hx
      have : dec15 0 = 0 := by
        have := Tools.c28_digits_partial 0 0 (by norm_num)
        simpa using this
      rw [this]
      simp [Decimal.value, decimalValue, fractionValue]
  · obtain ⟨hn, hv⟩ := rounded_value x hx
    have hsign : (if x < 0 then ['-'] else []) = signChars (if x < 0 then some true else none) := by
      split <;> rfl
    have hsv : signValue (if x < 0 then some true else none) = if x < 0 then -1 else 1 := by
      unfold signValue
      split <;> simp
    have hlen := digits_length 15 (rounded x).1
    have hval : decimalValue (digits 15 (rounded x).1) = (rounded x).1 := by
      rw [digits_value, Nat.mod_eq_of_lt hn]
    unfold print15
    rw [if_neg hx]
    simp only [hsign]
    rw [hv]
    revert hlen hval
    generalize digits 15 (rounded x).1 = ds
    generalize (rounded x).1 = n
    generalize (rounded x).2 = X
    intro hlen hval
    by_cases h1 : X < -4 ∨ 15 ≤ X
    · rw [if_pos h1]
      obtain ⟨f, hf, hfv⟩ := point_decimal (ds.take 1) (ds.drop 1)
      refine ⟨⟨if x < 0 then some true else none, ds.take 1, f,
        some ⟨false, some (decide (X < 0)), digits (max 2 (Nat.log 10 X.natAbs + 1)) X.natAbs⟩⟩,
        ⟨Or.inl ?_, ?_⟩, ?_, ?_⟩
      · intro h
        have := congrArg List.length h
        simp [hlen] at this
      · rintro e ⟨⟩ h
        have := congrArg List.length h
        simp [digits_length] at this
      · rw [hf]
        simp only [Decimal.chars, exponentChars, Exponent.chars, List.append_assoc, Bool.false_eq_true, if_false]
        by_cases h : X < 0 <;> simp [h, signChars]
      · simp only [Decimal.value, hsv, exponentValue, Exponent.value]
        rw [hfv, List.take_append_drop, hval, List.length_drop, hlen, digits_value, Nat.mod_eq_of_lt (log_digits _)]
        have hX : (if some (decide (X < 0)) = some true then -(X.natAbs : Int) else (X.natAbs : Int)) = X := by
          by_cases h : X < 0
          · simp only [h, decide_true, if_true]; omega
          · simp only [h, decide_false, Option.some.injEq, Bool.false_eq_true, if_false]; omega
        rw [hX, zpow_sub₀ (by norm_num)]
        norm_num
        ring_nf
    · rw [if_neg h1]
      push Not at h1
      by_cases h2 : X < 0
      · rw [if_pos h2]
        refine ⟨⟨if x < 0 then some true else none, [0], some (List.replicate ((-X).toNat - 1) 0 ++ strip ds), none⟩,
          ⟨Or.inl (by simp), by simp⟩, ?_, ?_⟩
        · simp only [Decimal.chars, exponentChars, fractionChars, List.map_append, List.map_replicate, List.map_cons,
            List.map_nil, List.append_assoc, List.append_nil, List.cons_append, List.nil_append]
          rfl
        · simp only [Decimal.value, hsv, exponentValue]
          rw [fraction_value]
          have h3 : decimalValue ([0] ++ (List.replicate ((-X).toNat - 1) 0 ++ strip ds)) = decimalValue ([] ++ strip ds) := by
            rw [← List.append_assoc, decimalValue_append, decimalValue_append, decimalValue_zeros]
            simp [decimalValue]
          have h4 := strip_value [] ds
          rw [List.nil_append, List.nil_append, hval, hlen] at h4
          rw [h3, List.length_append, List.length_replicate, pow_add, List.nil_append, ← div_div,
            div_right_comm, h4, zpow_zero, mul_one]
          have h5 : (10 : Rat) ^ (X - 14) = 1 / 10 ^ 15 / 10 ^ ((-X).toNat - 1) := by
            rw [← zpow_natCast, ← zpow_natCast, one_div, ← zpow_neg, div_eq_mul_inv, ← zpow_neg, ← zpow_add₀ (by norm_num)]
            congr 1
            omega
          rw [h5]
          ring
      · rw [if_neg h2]
        obtain ⟨f, hf, hfv⟩ := point_decimal (ds.take (X.toNat + 1)) (ds.drop (X.toNat + 1))
        refine ⟨⟨if x < 0 then some true else none, ds.take (X.toNat + 1), f, none⟩, ⟨Or.inl ?_, by simp⟩, ?_, ?_⟩
        · intro h
          have := congrArg List.length h
          simp [hlen] at this
        · rw [hf]
          simp only [Decimal.chars, exponentChars, List.append_assoc, List.append_nil]
        · simp only [Decimal.value, hsv, exponentValue]
          rw [hfv, List.take_append_drop, hval, List.length_drop, hlen, zpow_zero, mul_one]
          have h5 : (10 : Rat) ^ (X - 14) = 1 / 10 ^ (15 - (X.toNat + 1)) := by
            rw [← zpow_natCast, one_div, ← zpow_neg]
            congr 1
            omega
          rw [h5]
          ring

/-! ## Files that were written -/

/-- The token of `Tools/Text.lean` that an entry of a table becomes. -/
def Entry.tok (rd : Rat → Option Rat) : Entry → Tok
  | .finite x => match rd (dec15 x) with
    | some v => .num v
    | none => .other
  | _ => .other

private theorem decimal_newline (d : Decimal) : '\n' ∉ d.chars := by
  have hdc : ∀ ds : List (Fin 10), '\n' ∉ ds.map digitChar := by
    intro ds h
    rw [List.mem_map] at h
    obtain ⟨a, _, ha⟩ := h
    have := (digitChar_ne a).2.2.2.2.2
    rw [ha] at this
    exact absurd this (by decide)
  have hsc : ∀ s, '\n' ∉ signChars s := by
    intro s; rcases s with _ | _ | _ <;> decide
  unfold Decimal.chars
  simp only [List.mem_append, not_or]
  refine ⟨⟨⟨hsc _, hdc _⟩, ?_⟩, ?_⟩
  · cases d.fraction with
    | none => simp [fractionChars]
    | some f => simpa [fractionChars] using hdc f
  · cases d.exponent with
    | none => simp [exponentChars]
    | some x =>
      simp only [exponentChars, Exponent.chars, List.mem_cons, List.mem_append, not_or]
      refine ⟨?_, hsc _, hdc _⟩
      cases x.capital <;> decide

private theorem entry_word (rd : Rat → Option Rat) (e : Entry) :
    ∃ w : Word, w.Ok ∧ e.print = w.chars ∧ w.tok rd = e.tok rd ∧ '\n' ∉ w.chars := by
  cases e with
  | finite x =>
    obtain ⟨d, hd, hp, hv⟩ := c117_printed x
    exact ⟨.num d, hd, hp, by simp only [Word.tok, Entry.tok, hv]; cases rd (dec15 x) <;> rfl, decimal_newline d⟩
  | infinite negative =>
    cases negative
    · exact ⟨.other none ['i', 'n', 'f'], ⟨by decide, by decide, by simp; decide⟩, rfl, rfl, by decide⟩
    · exact ⟨.other (some true) ['i', 'n', 'f'], ⟨by decide, by decide, by simp; decide⟩, rfl, rfl, by decide⟩
  | nan => exact ⟨.other none ['n', 'a', 'n'], ⟨by decide, by decide, by simp; decide⟩, rfl, rfl, by decide⟩

private theorem entries_words (rd : Rat → Option Rat) (r : List Entry) : ∃ ws : List Word,
    (∀ w ∈ ws, w.Ok) ∧ Spelled (r.flatMap fun v => v.print ++ [' ']) ws ∧
      ws.map (Word.tok rd) = r.map (Entry.tok rd) ∧ '\n' ∉ r.flatMap fun v => v.print ++ [' '] := by
  induction r with
  | nil => exact ⟨[], by simp, .blanks [] (by simp), rfl, by simp⟩
  | cons e r ih =>
    obtain ⟨ws, h1, h2, h3, h4⟩ := ih
    obtain ⟨w, hw, hp, ht, hn⟩ := entry_word rd e
    refine ⟨w :: ws, ?_, ?_, ?_, ?_⟩
    · simp only [List.mem_cons, forall_eq_or_imp]; exact ⟨hw, h1⟩
    · have := Spelled.word [] (by simp) w ' ' (by decide) _ _ h2
      simpa [hp] using this
    · simp [ht, h3]
    · rw [List.flatMap_cons, hp]
      simp only [List.mem_append, not_or]
      exact ⟨⟨hn, by decide⟩, h4⟩

/-- A written table is read as the table of its printed entries, an entry without a printed double ending its row. -/
theorem c117_written (rd : Rat → Option Rat) (t : List (List Entry)) :
    quickread rd (quickwrite t) = Tools.quickread id (t.map fun r => r.map (Entry.tok rd)) := by
  apply quickread_of_rows
  unfold quickwrite
  have := lines_join (t.map fun r => r.flatMap fun v => v.print ++ [' ']) ?_ []
  · rw [List.append_nil, List.flatMap_map] at this
    rw [this, show lines [] = [] from rfl, List.append_nil, List.map_map, List.map_map]
    apply List.map_congr_left
    intro r _
    obtain ⟨ws, h1, h2, h3, _⟩ := entries_words rd r
    simp only [Function.comp]
    rw [c117_line rd _ ws h2 h1, h3]
  · intro l hl
    rw [List.mem_map] at hl
    obtain ⟨r, _, rfl⟩ := hl
    exact (entries_words rd r).choose_spec.2.2.2

private theorem extract_prefix (rd : Rat → Option Rat) (a : List Rat) (ha : ∀ v ∈ a, (rd (dec15 v)).isSome)
    (toks : List Tok) :
    Tools.extract id ((a.map fun v => (Entry.finite v).tok rd) ++ toks) =
      (a.map fun v => (rd (dec15 v)).getD 0) ++ Tools.extract id toks := by
  induction a with
  | nil => rfl
  | cons v a ih =>
    obtain ⟨x, hx⟩ := Option.isSome_iff_exists.1 (ha v (by simp))
    simp only [List.map_cons, List.cons_append, Entry.tok, hx, Tools.extract, Option.getD_some, id]
    rw [← ih fun v hv => ha v (by simp [hv])]
    rfl

private theorem extract_write (rd : Rat → Rat) (a : List Rat) :
    Tools.extract rd (a.map fun v => Tok.num (dec15 v)) = a.map fun v => rd (dec15 v) := by
  induction a with
  | nil => rfl
  | cons v a ih => simp only [List.map_cons, Tools.extract, ih]

/-- What `quickwrite` puts into a file, character by character, is read as a table of the same shape with the entries that
were printed. Missing from the full claim: entries that are not finite or have no double when rounded to 15 digits
(`c117_nonfinite_violated`, `c117_largest_violated`), and the digits after the fifteenth (C28). -/
theorem c117_roundtrip_partial (rd : Rat → Option Rat) (t : List (List Rat)) (c : Nat) (hr : t ≠ []) (hc : 0 < c)
    (ht : ∀ r ∈ t, r.length = c) (hd : ∀ r ∈ t, ∀ v ∈ r, (rd (dec15 v)).isSome) :
    quickread rd (quickwrite (t.map fun r => r.map Entry.finite)) =
      .ok ⟨t.length, c, t.map fun r => r.map fun v => (rd (dec15 v)).getD 0⟩ := by
  rw [c117_written, ← Tools.c28_roundtrip_partial (fun v => (rd v).getD 0) t c hr hc ht]
  apply quickread_congr
  unfold Tools.quickwrite
  rw [List.map_map, List.map_map, List.map_map]
  apply List.map_congr_left
  intro r hr'
  simp only [Function.comp]
  rw [extract_write, List.map_map]
  have := extract_prefix rd r (hd r hr') []
  rw [List.append_nil] at this
  simp only [Function.comp_def]
  rw [this]
  simp [Tools.extract]

/-- A column with infinities or NaN disappears, with all columns after it, and nothing is reported: only the columns before
are read. -/
theorem c117_nonfinite_violated (rd : Rat → Option Rat) (t : List (List Rat × Entry × List Entry)) (j : Nat)
    (hr : t ≠ []) (hj : 0 < j) (ht : ∀ r ∈ t, r.1.length = j) (hx : ∀ r ∈ t, ∀ v, r.2.1 ≠ .finite v)
    (hd : ∀ r ∈ t, ∀ v ∈ r.1, (rd (dec15 v)).isSome) :
    quickread rd (quickwrite (t.map fun r => r.1.map Entry.finite ++ r.2.1 :: r.2.2)) =
      .ok ⟨t.length, j, t.map fun r => r.1.map fun v => (rd (dec15 v)).getD 0⟩ := by
  have h := Tools.c28_roundtrip_partial (fun v => (rd v).getD 0) (t.map (·.1)) j (by simpa using hr) hj
    (by simpa using ht)
  rw [List.length_map, List.map_map] at h
  rw [c117_written]
  refine Eq.trans ?_ h
  apply quickread_congr
  unfold Tools.quickwrite
  rw [List.map_map, List.map_map, List.map_map, List.map_map]
  apply List.map_congr_left
  intro r hr'
  simp only [Function.comp]
  rw [extract_write, List.map_append, List.map_map]
  have h1 := extract_prefix rd r.1 (hd r hr') ((r.2.1 :: r.2.2).map (Entry.tok rd))
  simp only [Function.comp_def]
  rw [h1]
  have h2 : Tools.extract id ((r.2.1 :: r.2.2).map (Entry.tok rd)) = [] := by
    have := hx r hr'
    cases he : r.2.1 with
    | finite v => exact absurd he (this v)
    | infinite n => rfl
    | nan => rfl
  rw [h2, List.append_nil]

/-- The largest double is printed, with 15 digits, as a number that has no double: the row is lost. (`rd` need only refuse what
any IEEE conversion refuses.) -/
theorem c117_largest_violated (rd : Rat → Option Rat) (hrd : ∀ v, 2 ^ 1024 - 2 ^ 970 ≤ v → rd v = none) :
    quickread rd (quickwrite [[.finite (2 ^ 1024 - 2 ^ 971)]]) = .ok ⟨0, 0, []⟩ := by
  have h : rd (dec15 (2 ^ 1024 - 2 ^ 971)) = none := hrd _ (by decide +kernel)
  rw [c117_written]
  simp only [List.map_cons, List.map_nil, Entry.tok, h]
  rfl

private theorem one_row (rd : Rat → Option Rat) (cs : List Char) (hn : '\n' ∉ cs) (l : List Rat) (hl : l ≠ [])
    (h : row rd cs = l) : quickread rd (cs ++ ['\n']) = .ok ⟨1, l.length, [l]⟩ := by
  have h1 := lines_join [cs] (by simpa using hn) []
  simp only [List.flatMap_cons, List.flatMap_nil, List.append_nil] at h1
  unfold quickread
  rw [h1, show lines [] = [] from rfl, List.append_nil, List.map_cons, List.map_nil, h]
  simp only [Tools.quickread, Tools.readLines, Tools.readLine, extract_num, Tools.ReadState.init]
  simp [hl, Outcome.bind, Tools.copyOut]

/-- Numbers need no blank between them: a number directly followed by a signed one, as in `1.0-300`, is read as two columns
instead of being refused. -/
theorem c117_glued_violated (rd : Rat → Option Rat) (d d' : Decimal) (hd : d.Ok) (hd' : d'.Ok) (hs : d'.sign ≠ none)
    (v v' : Rat) (hv : rd d.value = some v) (hv' : rd d'.value = some v') :
    quickread rd (d.chars ++ d'.chars ++ ['\n']) = .ok ⟨1, 2, [[v, v']]⟩ := by
  apply one_row (l := [v, v'])
  · simp only [List.mem_append, not_or]
    exact ⟨decimal_newline d, decimal_newline d'⟩
  · simp
  · have hstop : Stop d'.chars := by
      intro c hc
      unfold Decimal.chars at hc
      rcases h : d'.sign with _ | _ | _
      · exact absurd h hs
      · rw [h] at hc
        simp only [signChars, List.cons_append, List.head?_cons, Option.some.injEq] at hc
        subst hc; decide
      · rw [h] at hc
        simp only [signChars, List.cons_append, List.head?_cons, Option.some.injEq] at hc
        subst hc; decide
    have h1 := get_decimal rd [] (by simp) d hd d'.chars hstop
    rw [hv, List.nil_append] at h1
    have h2 := get_decimal rd [] (by simp) d' hd' [] (by intro c hc; cases hc)
    rw [hv', List.nil_append, List.append_nil] at h2
    rw [row_some h1]
    show v :: row rd d'.chars = _
    rw [row_some h2]
    show v :: v' :: row rd [] = _
    rw [row_none rfl]

/-- A number directly followed by something else, such as a comma, ends its row without an error: of a file of comma separated
values only the first column is read. -/
theorem c117_cut_violated (rd : Rat → Option Rat) (d : Decimal) (hd : d.Ok) (v : Rat) (hv : rd d.value = some v)
    (c : Char) (hc : digit? c = none ∧ ¬ Blank c ∧ c ∉ ['.', 'e', 'E', '+', '-']) (rest : List Char)
    (hn : '\n' ∉ rest) : quickread rd (d.chars ++ c :: rest ++ ['\n']) = .ok ⟨1, 1, [[v]]⟩ := by
  obtain ⟨hc1, hc2, hc3⟩ := hc
  replace hc2 : blank c = false := Bool.eq_false_iff.2 fun h => hc2 ((blank_iff c).1 h)
  simp only [List.mem_cons, List.not_mem_nil, or_false, not_or] at hc3
  apply one_row (l := [v])
  · simp only [List.mem_append, List.mem_cons, not_or]
    refine ⟨decimal_newline d, ?_, hn⟩
    rintro rfl
    exact absurd hc2 (by decide)
  · simp
  · have h1 := get_decimal rd [] (by simp) d hd (c :: rest)
      (by intro x hx; cases hx; exact ⟨hc1, hc3.1, hc3.2.1, hc3.2.2.1⟩)
    rw [hv, List.nil_append] at h1
    rw [row_some h1]
    show v :: row rd (c :: rest) = _
    have h2 := get_other rd [] (by simp) none (c :: rest) (by intro x hx; cases hx; exact hc2)
      (by intro x hx; cases hx; exact ⟨hc1, hc3.1, fun _ => hc3.2.2.2⟩)
    rw [row_none (cs := c :: rest) h2]

/-! ## Examples -/

/-- A conversion that keeps every value below the largest double. -/
def keep (v : Rat) : Option Rat := if v < 2 ^ 1024 - 2 ^ 970 then some v else none

/-- `-12.50E+3` -/
def sample : Decimal := ⟨some true, [1, 2], some [5, 0], some ⟨true, some false, [3]⟩⟩

/-- `.5` -/
def half : Decimal := ⟨none, [], some [5], none⟩

theorem sample_ok : sample.Ok := ⟨Or.inl (by decide), by rintro e ⟨⟩; decide⟩

theorem half_ok : half.Ok := ⟨Or.inr ⟨[5], rfl, by decide⟩, by rintro e ⟨⟩⟩

example : number "-12.50E+3 .5".toList = some (-12500, " .5".toList) := by
  have := c117_number sample sample_ok " .5".toList (by intro c hc; cases hc; decide)
  rw [show sample.value = -12500 by decide +kernel] at this
  exact this

example : ∃ d : Decimal, d.Ok ∧ "1.5x".toList = d.chars ++ "x".toList ∧ (3 / 2 : Rat) = d.value ∧
    ∀ c, "x".toList.head? = some c → digit? c = none :=
  c117_only_numbers _ _ _ (by decide +kernel)

example : row keep "\t-12.50E+3  .5 # rest\r".toList = [-12500, 1 / 2] := by
  have h := c117_line keep "\t-12.50E+3  .5 # rest\r".toList [.num sample, .num half, .other none ['#'],
      .other none "rest".toList]
    (.word ['\t'] (by decide) (.num sample) ' ' (by decide) _ _
      (.word [' '] (by decide) (.num half) ' ' (by decide) _ _
        (.word [] (by decide) (.other none ['#']) ' ' (by decide) _ _
          (.word [] (by decide) (.other none "rest".toList) '\r' (by decide) _ _ (.blanks [] (by decide))))))
    (by
      simp only [List.mem_cons, List.not_mem_nil, or_false, forall_eq_or_imp, forall_eq]
      exact ⟨sample_ok, half_ok, ⟨by decide, by decide, by simp; decide⟩, ⟨by decide, by decide, by simp; decide⟩⟩)
  rw [h]
  decide +kernel

example : quickread keep (".5 .5\n-12.50E+3 .5\r\n").toList = .ok ⟨2, 2, [[1 / 2, 1 / 2], [-12500, 1 / 2]]⟩ := by
  have h := c117_file keep [(".5 .5".toList, [.num half, .num half]), ("-12.50E+3 .5\r".toList, [.num sample, .num half])]
    (by decide)
    (by
      simp only [List.mem_cons, List.not_mem_nil, or_false, forall_eq_or_imp, forall_eq]
      exact ⟨.word [] (by decide) (.num half) ' ' (by decide) _ _ (.last [] (by decide) (.num half)),
        .word [] (by decide) (.num sample) ' ' (by decide) _ _
          (.word [] (by decide) (.num half) '\r' (by decide) _ _ (.blanks [] (by decide)))⟩)
    (by
      simp only [List.mem_cons, List.not_mem_nil, or_false, forall_eq_or_imp, forall_eq]
      exact ⟨⟨half_ok, half_ok⟩, sample_ok, half_ok⟩)
  exact h.trans (by decide +kernel)

example : quickread keep "1 2\n3 4".toList = quickread keep "1 2\n3 4\n".toList :=
  (c117_last_line keep "1 2\n3 ".toList '4' (by decide)).symm

example : quickread keep "1 2 x\n\n3,".toList ≠ .ub := c117_safe _ _

example : print15 (1 / 3) = "0.333333333333333".toList ∧ print15 (-(10 : Rat) ^ 20) = "-1e+20".toList ∧
    print15 (1234567 / 1000) = "1234.567".toList ∧ print15 (25 / 10 ^ 7) = "2.5e-06".toList := by decide +kernel

example : quickread keep (quickwrite [[.finite (1 / 2), .finite 3], [.finite (-4), .finite 0]]) =
    .ok ⟨2, 2, [[1 / 2, 3], [-4, 0]]⟩ := by
  have h := c117_roundtrip_partial keep [[1 / 2, 3], [-4, 0]] 2 (by simp) (by decide) (by simp)
    (by simp only [List.mem_cons, List.not_mem_nil, or_false, forall_eq_or_imp, forall_eq]; decide +kernel)
  exact h.trans (by decide +kernel)

example : quickread keep (quickwrite [[.finite 1, .infinite true, .finite 2], [.finite 3, .nan, .finite 4]]) =
    .ok ⟨2, 1, [[1], [3]]⟩ := by
  have h := c117_nonfinite_violated keep [([1], .infinite true, [.finite 2]), ([3], .nan, [.finite 4])] 1 (by simp)
    (by decide) (by simp) (by simp)
    (by simp only [List.mem_cons, List.not_mem_nil, or_false, forall_eq_or_imp, forall_eq]; decide +kernel)
  exact h.trans (by decide +kernel)

example : quickread keep (quickwrite [[.finite (2 ^ 1024 - 2 ^ 971)]]) = .ok ⟨0, 0, []⟩ :=
  c117_largest_violated keep fun _ hv => if_neg (not_lt.2 hv)

example : quickread keep ".5-12.50E+3\n".toList = .ok ⟨1, 2, [[1 / 2, -12500]]⟩ :=
  c117_glued_violated keep half sample half_ok sample_ok (by simp [sample]) (1 / 2) (-12500) (by decide +kernel)
    (by decide +kernel)

example : quickread keep ".5,1,2\n".toList = .ok ⟨1, 1, [[1 / 2]]⟩ :=
  c117_cut_violated keep half half_ok (1 / 2) (by decide +kernel) ',' (by decide) "1,2".toList (by decide)

end Verif.Chars
