import Verif.Limits.Lines
import Verif.Layout.Model

/-!
# The limits in Python are the limits of the kernels (C148)
-/

set_option autoImplicit false

namespace Forcepho.Limits

/-- A macro may be defined again only with the same replacement (C++11 [cpp.replace]). -/
def Consistent (lines : List (List Char)) : Prop :=
  ∀ l ∈ lines, ∀ l' ∈ lines, ∀ n b b', cDirective (cut l) = some (n, b) → cDirective (cut l') = some (n, b') → b = b'

/-! ## The text of a plain header -/

lemma splice_line (l T : List Char) (h : Plain l) : splice (l ++ '\n' :: T) = l ++ '\n' :: splice T := by
  have key : ∀ l : List Char, (∀ c ∈ l, c ≠ '\n') → l.getLast? ≠ some '\\' →
      splice (l ++ '\n' :: T) = l ++ '\n' :: splice T := by
    intro l
    induction l with
    | nil =>
      intro _ _
      cases T with
      | nil => rfl
      | cons c t => rw [List.nil_append, splice, if_neg (by rintro ⟨h, -⟩; revert h; decide)]; rfl
    | cons a l ih =>
      intro hn hl
      cases l with
      | nil =>
        have ih := ih (by simp) (by simp)
        have ha : a ≠ '\\' := by rintro rfl; exact hl rfl
        rw [List.cons_append, List.nil_append, splice, if_neg (fun h => ha h.1)]
        rw [List.nil_append] at ih
        rw [ih]; rfl
      | cons b t =>
        have ih := ih (fun c hc => hn c (List.mem_cons_of_mem _ hc)) (by simpa using hl)
        rw [List.cons_append, List.cons_append, splice, if_neg (fun h => hn b (by simp) h.2), ← List.cons_append, ih]
        rfl
  exact key l h.no_newline h.cont

lemma uncomment_tail (l T : List Char) (h : ∀ c ∈ l, c ≠ '\n') :
    uncomment .line (l ++ '\n' :: T) = '\n' :: uncomment .code T := by
  induction l with
  | nil => rw [List.nil_append, uncomment, if_pos rfl]
  | cons c t ih =>
    rw [List.cons_append, uncomment, if_neg (h c (by simp)), ih fun c hc => h c (List.mem_cons_of_mem _ hc)]

lemma uncomment_line (l T : List Char) (h : Plain l) :
    uncomment .code (l ++ '\n' :: T) = cut l ++ '\n' :: uncomment .code T := by
  have key : ∀ l : List Char, (∀ c ∈ l, c ≠ '\n') → ¬ ['/', '*'] <:+: l →
      uncomment .code (l ++ '\n' :: T) = cut l ++ '\n' :: uncomment .code T := by
    intro l
    induction l with
    | nil =>
      intro _ _
      cases T with
      | nil => rw [List.nil_append, uncomment, uncomment]; rfl
      | cons c t =>
        rw [List.nil_append, uncomment, if_neg (by rintro ⟨h, -⟩; revert h; decide),
          if_neg (by rintro ⟨h, -⟩; revert h; decide)]
        rfl
    | cons a l ih =>
      intro hn hb
      have ih := ih (fun c hc => hn c (List.mem_cons_of_mem _ hc)) (fun hh => hb (hh.trans (List.infix_cons (List.infix_refl _))))
      cases l with
      | nil =>
        rw [List.nil_append] at ih
        rw [List.cons_append, List.nil_append, uncomment, if_neg (by rintro ⟨-, h⟩; revert h; decide),
          if_neg (by rintro ⟨-, h⟩; revert h; decide), ih]
        rfl
      | cons b t =>
        rw [List.cons_append, List.cons_append, uncomment, cut]
        split
        · rw [uncomment_tail t T (fun c hc => hn c (by simp [hc]))]
          rfl
        · rw [if_neg, ← List.cons_append, ih]
          · rfl
          · rintro ⟨rfl, rfl⟩
            exact hb ⟨[], t, rfl⟩
  exact key l h.no_newline h.block

lemma splitLines_line (l T : List Char) (h : ∀ c ∈ l, c ≠ '\n') : splitLines (l ++ '\n' :: T) = l :: splitLines T := by
  induction l with
  | nil => rw [List.nil_append, splitLines, if_pos rfl]
  | cons c t ih =>
    rw [List.cons_append, splitLines, if_neg (h c (by simp)), ih fun c hc => h c (List.mem_cons_of_mem _ hc)]

lemma cut_no_newline (l : List Char) (h : ∀ c ∈ l, c ≠ '\n') : ∀ c ∈ cut l, c ≠ '\n' := by
  rcases cut_cases l with e | ⟨p, t, e, e'⟩
  · rw [e]; exact h
  · rw [e']
    intro c hc
    rcases List.mem_append.1 hc with hc | hc
    · exact h c (by rw [e]; simp [hc])
    · rw [List.mem_singleton] at hc; subst hc; decide

/-- The lines that the preprocessor sees. -/
lemma lines_eq (lines : List (List Char)) (h : ∀ l ∈ lines, Plain l) :
    splitLines (uncomment .code (splice (text lines))) = lines.map cut := by
  induction lines with
  | nil => rw [text, List.flatMap_nil, splice, uncomment]; rfl
  | cons l ls ih =>
    have hl := h l (List.mem_cons_self ..)
    have ih := ih fun l hl => h l (List.mem_cons_of_mem _ hl)
    rw [show text (l :: ls) = l ++ '\n' :: text ls by simp [text], splice_line _ _ hl, uncomment_line _ _ hl,
      splitLines_line _ _ (cut_no_newline l hl.no_newline), ih]
    rfl

/-! ## The tables -/

/-- Whether and where the preprocessor has a name from. -/
lemma cMacros_iff (lines : List (List Char)) (h : ∀ l ∈ lines, Plain l) (n : List Char) :
    (∀ b, cMacros lines n = some b → ∃ l ∈ lines, cDirective (cut l) = some (n, b)) ∧
    (cMacros lines n = none → ∀ l ∈ lines, ∀ b, cDirective (cut l) ≠ some (n, b)) := by
  have key : ∀ (ls : List (List Char)) (d : Dict (List Char)),
      let r := ls.foldl (fun d l => match cDirective l with | some (name, body) => d.set name body | none => d) d
      (∀ b, r n = some b → d n = some b ∨ ∃ l ∈ ls, cDirective l = some (n, b)) ∧
      (r n = none → d n = none ∧ ∀ l ∈ ls, ∀ b, cDirective l ≠ some (n, b)) := by
    intro ls
    induction ls with
    | nil => intro d; exact ⟨fun b h => .inl h, fun h => ⟨h, by simp⟩⟩
    | cons l ls ih =>
      intro d r
      obtain ⟨h1, h2⟩ := ih (match cDirective l with | some (name, body) => d.set name body | none => d)
      cases hl : cDirective l with
      | none =>
        rw [hl] at h1 h2
        have er : r = ls.foldl (fun d l => match cDirective l with
          | some (name, body) => d.set name body | none => d) d := by
          show List.foldl _ _ (l :: ls) = _
          rw [List.foldl_cons, hl]
        rw [er]
        refine ⟨fun b hb => ?_, fun hb => ?_⟩
        · rcases h1 b hb with h | ⟨l', hl', e⟩
          · exact .inl h
          · exact .inr ⟨l', List.mem_cons_of_mem _ hl', e⟩
        · refine ⟨(h2 hb).1, fun l' hl' b => ?_⟩
          rcases List.mem_cons.1 hl' with rfl | hl'
          · rw [hl]; simp
          · exact (h2 hb).2 l' hl' b
      | some p =>
        obtain ⟨name, body⟩ := p
        rw [hl] at h1 h2
        have er : r = ls.foldl (fun d l => match cDirective l with
          | some (name, body) => d.set name body | none => d) (d.set name body) := by
          show List.foldl _ _ (l :: ls) = _
          rw [List.foldl_cons, hl]
        rw [er]
        refine ⟨fun b hb => ?_, fun hb => ?_⟩
        · rcases h1 b hb with h | ⟨l', hl', e⟩
          · simp only [Dict.set] at h
            split at h
            · rename_i hn
              refine .inr ⟨l, List.mem_cons_self .., ?_⟩
              rw [hl, hn, Option.some.inj h]
            · exact .inl h
          · exact .inr ⟨l', List.mem_cons_of_mem _ hl', e⟩
        · have h3 := (h2 hb).1
          simp only [Dict.set] at h3
          split at h3
          · simp at h3
          · rename_i hn
            refine ⟨h3, fun l' hl' b => ?_⟩
            rcases List.mem_cons.1 hl' with rfl | hl'
            · rw [hl]
              simp only [ne_eq, Option.some.injEq, Prod.mk.injEq, not_and]
              exact fun e => absurd e.symm hn
            · exact (h2 hb).2 l' hl' b
  obtain ⟨k1, k2⟩ := key (lines.map cut) fun _ => none
  rw [cMacros, lines_eq lines h]
  refine ⟨fun b hb => ?_, fun hb l hl b => (k2 hb).2 _ (List.mem_map_of_mem hl) b⟩
  rcases k1 b hb with h | ⟨l, hl, e⟩
  · simp at h
  · obtain ⟨l', hl', rfl⟩ := List.mem_map.1 hl
    exact ⟨l', hl', e⟩

/-- Whether and where Python has a name from. -/
lemma pyImport_iff (lines : List (List Char)) (d : Dict Val) (hd : pyImport lines = some d) :
    (∀ l ∈ lines, ∀ n value, regexp (l ++ ['\n']) = some (n, value) → (pyValue value).isSome = true) ∧
    ∀ n, (∀ v, d n = some v → ∃ l ∈ lines, ∃ value, regexp (l ++ ['\n']) = some (n, value) ∧ pyValue value = some v) ∧
      (d n = none → ∀ l ∈ lines, ∀ value, regexp (l ++ ['\n']) ≠ some (n, value)) := by
  have key : ∀ (ls : List (List Char)) (d0 d : Dict Val), ls.foldlM pyLine d0 = some d →
      (∀ l ∈ ls, ∀ n value, regexp (l ++ ['\n']) = some (n, value) → (pyValue value).isSome = true) ∧
      ∀ n, (∀ v, d n = some v → d0 n = some v ∨
          ∃ l ∈ ls, ∃ value, regexp (l ++ ['\n']) = some (n, value) ∧ pyValue value = some v) ∧
        (d n = none → d0 n = none ∧ ∀ l ∈ ls, ∀ value, regexp (l ++ ['\n']) ≠ some (n, value)) := by
    intro ls
    induction ls with
    | nil =>
      intro d0 d h
      obtain rfl : d0 = d := by simpa using h
      exact ⟨by simp, fun n => ⟨fun v h => .inl h, fun h => ⟨h, by simp⟩⟩⟩
    | cons l ls ih =>
      intro d0 d h
      rw [List.foldlM_cons] at h
      obtain ⟨d1, h1, h2⟩ := Option.bind_eq_some_iff.1 h
      obtain ⟨ih1, ih2⟩ := ih d1 d h2
      rw [pyLine] at h1
      cases hl : regexp (l ++ ['\n']) with
      | none =>
        rw [hl] at h1
        obtain rfl := Option.some.inj h1
        refine ⟨fun l' hl' n value hr => ?_, fun n => ⟨fun v hv => ?_, fun hv => ⟨((ih2 n).2 hv).1, fun l' hl' value => ?_⟩⟩⟩
        · rcases List.mem_cons.1 hl' with rfl | hl'
          · rw [hl] at hr; exact absurd hr (by simp)
          · exact ih1 l' hl' n value hr
        · rcases (ih2 n).1 v hv with h | ⟨l', hl', e⟩
          · exact .inl h
          · exact .inr ⟨l', List.mem_cons_of_mem _ hl', e⟩
        · rcases List.mem_cons.1 hl' with rfl | hl'
          · rw [hl]; simp
          · exact ((ih2 n).2 hv).2 l' hl' value
      | some p =>
        obtain ⟨name, val⟩ := p
        rw [hl] at h1
        obtain ⟨w, hw, rfl⟩ := Option.map_eq_some_iff.1 h1
        refine ⟨fun l' hl' n value hr => ?_, fun n => ⟨fun v hv => ?_, fun hv => ?_⟩⟩
        · rcases List.mem_cons.1 hl' with rfl | hl'
          · rw [hl] at hr
            simp only [Option.some.injEq, Prod.mk.injEq] at hr
            rw [← hr.2, hw]; rfl
          · exact ih1 l' hl' n value hr
        · rcases (ih2 n).1 v hv with h | ⟨l', hl', e⟩
          · simp only [Dict.set] at h
            split at h
            · rename_i hn
              exact .inr ⟨l, List.mem_cons_self .., val, by rw [hl, hn], by rw [hw]; exact h⟩
            · exact .inl h
          · exact .inr ⟨l', List.mem_cons_of_mem _ hl', e⟩
        · have h3 := ((ih2 n).2 hv).1
          simp only [Dict.set] at h3
          split at h3
          · simp at h3
          · rename_i hn
            refine ⟨h3, fun l' hl' value => ?_⟩
            rcases List.mem_cons.1 hl' with rfl | hl'
            · rw [hl]
              simp only [ne_eq, Option.some.injEq, Prod.mk.injEq, not_and]
              exact fun e => absurd e.symm hn
            · exact ((ih2 n).2 hv).2 l' hl' value
  obtain ⟨k1, k2⟩ := key lines _ d hd
  refine ⟨k1, fun n => ⟨fun v hv => ?_, fun hv => ((k2 n).2 hv).2⟩⟩
  rcases (k2 n).1 v hv with h | h
  · simp at h
  · exact h

/-- **C148.** If the header is made of plain lines, whatever they say, and the import does not raise, Python defines
just the macros with a replacement, and the number it has for one is the constant of C that replaces it; except if that
is written with underscores or as infinity (no constants of C), or is a zero followed by digits. -/
theorem C148_agree_partial (lines : List (List Char)) (h : ∀ l ∈ lines, Plain l) (hc : Consistent lines) (d : Dict Val)
    (hd : pyImport lines = some d) (n : List Char) :
    (d n = none ↔ cMacros lines n = none ∨ cMacros lines n = some []) ∧
    ∀ v, d n = some v → ∃ body, cMacros lines n = some body ∧
      (CNum body v ∨ '_' ∈ body ∨ v = .special ∨ Octal body) := by
  obtain ⟨p1, p2⟩ := pyImport_iff lines d hd
  obtain ⟨c1, c2⟩ := cMacros_iff lines h n
  have hval : ∀ v, d n = some v → ∃ value, cMacros lines n = some (strip value) ∧ strip value ≠ [] ∧
      pyValue value = some v := by
    intro v hv
    obtain ⟨l, hl, value, hr, hvv⟩ := (p2 n).1 v hv
    obtain ⟨e, hne⟩ := line_value l n value v (h l hl) hr hvv
    refine ⟨value, ?_, hne, hvv⟩
    cases hm : cMacros lines n with
    | none => exact absurd e (c2 hm l hl _)
    | some b =>
      obtain ⟨l', hl', e'⟩ := c1 b hm
      rw [hc l hl l' hl' n _ _ e e']
  refine ⟨⟨fun hn => ?_, fun hn => ?_⟩, fun v hv => ?_⟩
  · cases hm : cMacros lines n with
    | none => exact .inl rfl
    | some b =>
      right
      obtain ⟨l, hl, e⟩ := c1 b hm
      cases hr : regexp (l ++ ['\n']) with
      | none => rw [line_none l n b (h l hl) hr e]
      | some p =>
        obtain ⟨n', value⟩ := p
        obtain ⟨v, hv⟩ := Option.isSome_iff_exists.1 (p1 l hl n' value hr)
        have := (line_value l n' value v (h l hl) hr hv).1
        rw [this] at e
        obtain ⟨rfl, -⟩ := Prod.mk.inj (Option.some.inj e)
        exact absurd hr ((p2 n').2 hn l hl value)
  · cases hv : d n with
    | none => rfl
    | some v =>
      obtain ⟨value, hm, hne, -⟩ := hval v hv
      rcases hn with hn | hn <;> rw [hm] at hn
      · exact absurd hn (by simp)
      · exact absurd (Option.some.inj hn) hne
  · obtain ⟨value, hm, -, hvv⟩ := hval v hv
    exact ⟨_, hm, C148_number value v hvv⟩

/-- **C148.** A header of plain lines whose macros are replaced by constants of C that are not octal, without a comment
behind, or by nothing, without a blank behind, can be imported. -/
theorem C148_import (lines : List (List Char)) (h : ∀ l ∈ lines, Plain l)
    (hm : ∀ l ∈ lines, ∀ n body, cDirective l = some (n, body) →
      (∃ w, CNum body w ∧ ¬ Octal body) ∨ (body = [] ∧ ∀ c, l.getLast? = some c → isBlank c = false)) :
    ∃ d, pyImport lines = some d := by
  have hline : ∀ l ∈ lines, ∀ d, ∃ d', pyLine d l = some d' := by
    intro l hl d
    rw [pyLine]
    cases hr : regexp (l ++ ['\n']) with
    | none => exact ⟨d, rfl⟩
    | some p =>
      obtain ⟨name, value⟩ := p
      obtain ⟨u, w1, w2, e, hu, hw1, h1, hn, h2, hw2, h3, h4⟩ := regexp_inv l name value (h l hl).no_newline hr
      have hch := (h l hl).chars
      rw [e] at hch
      obtain ⟨b, w2, rfl⟩ := List.exists_cons_of_ne_nil h3
      have hev := cDirective_eval u w1 name b (w2 ++ value)
        (all_blank (fun c hc => hch c (by simp [hc])) hu) (all_blank (fun c hc => hch c (by simp [hc])) hw1) h1 hn h2
        (blank_of_space b (hch b (by simp)) (by simp only [List.all_cons, Bool.and_eq_true] at hw2; exact hw2.1))
      rw [show b :: (w2 ++ value) = (b :: w2) ++ value from rfl, ← e] at hev
      have hp : Printable (w2 ++ value) := fun c hc => hch c (by
        rcases List.mem_append.1 hc with hc | hc <;> simp [hc])
      rw [hp.trim_eq, strip_left _ _ (by simp only [List.all_cons, Bool.and_eq_true] at hw2; exact hw2.2)] at hev
      rcases hm l hl _ _ hev with ⟨w, hw, ho⟩ | ⟨hb, hlast⟩
      · have key : ∃ x y, value = x ++ strip value ++ y ∧ x.all isSpace = true ∧ y.all isSpace = true := by
          refine ⟨value.takeWhile isSpace, ((value.dropWhile isSpace).reverse.takeWhile isSpace).reverse, ?_,
            List.all_takeWhile, ?_⟩
          · rw [strip, List.append_assoc, ← List.reverse_append, List.takeWhile_append_dropWhile, List.reverse_reverse,
              List.takeWhile_append_dropWhile]
          · rw [List.all_reverse]; exact List.all_takeWhile
        obtain ⟨x, y, e', hx, hy⟩ := key
        have := C148_literal x (strip value) y w hx hy hw ho
        rw [← e'] at this
        simp only [this]
        exact ⟨_, rfl⟩
      · -- a blank at the end
        exfalso
        obtain ⟨c, hc⟩ : ∃ c, value.getLast? = some c := by
          cases hv : value.getLast? with
          | none => exact absurd (List.getLast?_eq_none_iff.1 hv) h4
          | some c => exact ⟨c, rfl⟩
        obtain ⟨t, rfl⟩ : ∃ t, value = t ++ [c] := by
          rw [List.getLast?_eq_some_iff] at hc; exact hc
        have hcb : isBlank c = false := hlast c (by
          rw [e, show u ++ (['#', 'd', 'e', 'f', 'i', 'n', 'e'] ++ (w1 ++ (name ++ (b :: w2 ++ (t ++ [c]))))) =
            (u ++ (['#', 'd', 'e', 'f', 'i', 'n', 'e'] ++ (w1 ++ (name ++ (b :: w2 ++ t))))) ++ [c] by simp,
            List.getLast?_concat])
        have hcs : isSpace c = false := by
          by_contra hs
          rw [Bool.not_eq_false] at hs
          rw [blank_of_space c (hch c (by simp)) hs] at hcb
          exact absurd hcb (by simp)
        have : c ∈ strip (t ++ [c]) := by
          have hd : ∀ t : List Char, ∃ t', (t ++ [c]).dropWhile isSpace = t' ++ [c] := by
            intro t
            induction t with
            | nil => exact ⟨[], by simp [hcs]⟩
            | cons k t ih =>
              rw [List.cons_append, List.dropWhile_cons]
              split
              · exact ih
              · exact ⟨k :: t, rfl⟩
          obtain ⟨t', ht'⟩ := hd t
          rw [strip, ht', List.reverse_append, List.reverse_singleton, List.singleton_append,
            List.dropWhile_cons_of_neg (by simp [hcs])]
          simp
        rw [hb] at this
        simp at this
  have key : ∀ (ls : List (List Char)) (d : Dict Val), (∀ l ∈ ls, ∀ d, ∃ d', pyLine d l = some d') →
      ∃ d', ls.foldlM pyLine d = some d' := by
    intro ls
    induction ls with
    | nil => intro d _; exact ⟨d, rfl⟩
    | cons l ls ih =>
      intro d hls
      obtain ⟨d1, h1⟩ := hls l (List.mem_cons_self ..) d
      obtain ⟨d2, h2⟩ := ih d1 fun l hl => hls l (List.mem_cons_of_mem _ hl)
      exact ⟨d2, by rw [List.foldlM_cons, h1]; exact h2⟩
  exact key lines _ hline

/-- **C148.** A comment behind a number, which is nothing to the compiler, makes the import raise. -/
theorem C148_comment (lines : List (List Char)) (u w1 name w2 value t : List Char) (hu : u.all isSpace = true)
    (hw1 : w1.all isSpace = true) (h1 : w1 ≠ []) (hn : name.all isWord = true) (h2 : name ≠ [])
    (hw2 : w2.all isSpace = true) (h3 : w2 ≠ []) (hl : ∀ c ∈ u ++ (['#', 'd', 'e', 'f', 'i', 'n', 'e'] ++
      (w1 ++ (name ++ (w2 ++ (value ++ ['/', '/'] ++ t))))), c ≠ '\n')
    (h : u ++ (['#', 'd', 'e', 'f', 'i', 'n', 'e'] ++ (w1 ++ (name ++ (w2 ++ (value ++ ['/', '/'] ++ t))))) ∈ lines) :
    pyImport lines = none := by
  cases hd : pyImport lines with
  | none => rfl
  | some d =>
    exfalso
    obtain ⟨p1, -⟩ := pyImport_iff lines d hd
    have hs := regexp_some u w1 name w2 (value ++ ['/', '/'] ++ t) hu hw1 h1 hn h2 hw2 h3 (by simp)
      (fun c hc => hl c (List.mem_append_right _ (List.mem_append_right _ (List.mem_append_right _
        (List.mem_append_right _ (List.mem_append_right _ hc))))))
    obtain ⟨⟨n', v'⟩, hr⟩ := Option.isSome_iff_exists.1 hs
    have hr' : regexp (u ++ (['#', 'd', 'e', 'f', 'i', 'n', 'e'] ++ (w1 ++ (name ++ (w2 ++
        (value ++ ['/', '/'] ++ t))))) ++ ['\n']) = some (n', v') := by
      rw [← hr]; simp
    have hno : ∀ w : List Char, w.all isSpace = true → '/' ∉ w ∧ ∀ c ∈ w, c ≠ '/' := by
      intro w hw
      have : '/' ∉ w := fun hm => absurd (List.all_eq_true.1 hw _ hm) (by decide)
      exact ⟨this, fun c hc e => this (e ▸ hc)⟩
    have hsome := p1 _ h n' v' hr'
    obtain ⟨u', w1', w2', e, hu', hw1', -, hn', -, hw2', -, -⟩ := regexp_inv _ n' v' hl hr'
    by_cases hm : '/' ∈ v'
    · rw [pyValue_slash _ hm] at hsome
      exact absurd hsome (by simp)
    · have : '/' ∈ u' ++ (['#', 'd', 'e', 'f', 'i', 'n', 'e'] ++ (w1' ++ (n' ++ (w2' ++ v')))) := by rw [← e]; simp
      simp only [List.mem_append] at this
      rcases this with h | h | h | h | h | h
      · exact (hno _ hu').1 h
      · revert h; decide
      · exact (hno _ hw1').1 h
      · exact absurd (List.all_eq_true.1 hn' _ h) (by decide)
      · exact (hno _ hw2').1 h
      · exact hm h

/-! ## The header -/

/-- `src/kernel_limits.h`, all its lines. -/
def header : List (List Char) := ["// This file contains numerical limits that we have to hardwire to",
  "// ease fixed-sized allocations on the GPU",
  "",
  "// The maximum number of bands we're allowed to use",
  "#define MAXBANDS 30",
  "",
  "// The maximum number of active sources that the GPU can use",
  "#define MAXSOURCES 30",
  "",
  "// The number of on-sky parameters per band that yield derivatives",
  "#define NPARAMS 7",
  "// NOTE: Changing this *also* requires changing the structure of",
  "// the ImageGaussian class and the computation of the derivatives.",
  "",
  "// The maximum square distance in a Gaussian evaluation before we no-op.",
  "// Note that this refers to Y in exp(-0.5*Y)",
  "#define MAX_EXP_ARG 36.0",
  "//#define MAX_EXP_ARG 1e12",
  "",
  "// The number of separate accumulators in each GPU block.",
  "// Using more will consume more memory, but may avoid contention",
  "// in atomicAdd's between warps.",
  "#define NUMACCUMS 1",
  "",
  "",
  "#define MAXRADII 10",
  "",
  "",
  "// Shared memory in each GPU block is limited to 48 KB, which is 12K floats.",
  "// We have a handful (~9) of single variables, and then the big items are:",
  "// The accumulators are NUMACCUMS*(NPARAMS*MAXSOURCES+1) shared floats",
  "// The ImageGaussians are n_psf_per_source*n_sources*21 shared floats,",
  "// so this is bounded by n_psf_per_source*MAXSOURCES*21.",
  "",
  "// If n_psf ~ 20, then the memory per source is 20*21 for the gaussians,",
  "// and only 7*NUMACCUMS for the accumulators.",
  "// The kernel must be invoked with enough shared memory to hold these two",
  "// big arrays.  And it has to be enough smaller than 48KB to leave room",
  "// for the other few variables.  We suggest 48000 bytes.",
  "",
  ""].map String.toList

lemma header_python : (pyImport header).map (fun d => ["MAXBANDS".toList, "MAXSOURCES".toList, "NPARAMS".toList,
    "MAX_EXP_ARG".toList, "NUMACCUMS".toList, "MAXRADII".toList].map d) =
    some [some (.int 30), some (.int 30), some (.int 7), some (.dec 36), some (.int 1), some (.int 10)] := by
  decide +kernel

lemma header_compiler : ["MAXBANDS".toList, "MAXSOURCES".toList, "NPARAMS".toList,
    "MAX_EXP_ARG".toList, "NUMACCUMS".toList, "MAXRADII".toList].map (cMacros header) =
    [some "30".toList, some "30".toList, some "7".toList, some "36.0".toList, some "1".toList, some "10".toList] := by
  decide +kernel

/-- **C148.** The header as it is: the names Python defines with their values, and what the compiler puts in their
place. -/
theorem C148_header : ∃ d, pyImport header = some d ∧
    d "MAXBANDS".toList = some (.int 30) ∧ cMacros header "MAXBANDS".toList = some "30".toList ∧
    d "MAXSOURCES".toList = some (.int 30) ∧ cMacros header "MAXSOURCES".toList = some "30".toList ∧
    d "NPARAMS".toList = some (.int 7) ∧ cMacros header "NPARAMS".toList = some "7".toList ∧
    d "MAX_EXP_ARG".toList = some (.dec 36) ∧ cMacros header "MAX_EXP_ARG".toList = some "36.0".toList ∧
    d "NUMACCUMS".toList = some (.int 1) ∧ cMacros header "NUMACCUMS".toList = some "1".toList ∧
    d "MAXRADII".toList = some (.int 10) ∧ cMacros header "MAXRADII".toList = some "10".toList ∧
    (Layout.maxBands = 30 ∧ Layout.maxSources = 30 ∧ Layout.nParams = 7 ∧ Layout.maxRadii = 10) := by
  obtain ⟨d, hd, e⟩ := Option.map_eq_some_iff.1 header_python
  have hc := header_compiler
  generalize cMacros header = M at hc ⊢
  simp only [List.map_cons, List.map_nil, List.cons.injEq, and_true] at e hc
  obtain ⟨e1, e2, e3, e4, e5, e6⟩ := e
  obtain ⟨c1, c2, c3, c4, c5, c6⟩ := hc
  exact ⟨d, hd, e1, c1, e2, c2, e3, c3, e4, c4, e5, c5, e6, c6, rfl, rfl, rfl, rfl⟩

/-- A test for plain lines. -/
def plainTest (l : List Char) : Bool :=
  (l.all fun c => c == '\t' || (32 ≤ c.toNat && c.toNat ≤ 126)) && !decide (['/', '*'] <:+: l) &&
  (l.getLast? != some '\\') &&
  match l.dropWhile isBlank with
  | '#' :: r => ['d', 'e', 'f', 'i', 'n', 'e'].isPrefixOf r && ((r.drop 6).head?.map isBlank).getD false
  | _ => true

lemma plain_of_test (l : List Char) (h : plainTest l = true) : Plain l := by
  simp only [plainTest, Bool.and_eq_true, Bool.not_eq_true', decide_eq_false_iff_not, bne_iff_ne] at h
  obtain ⟨⟨⟨h1, h2⟩, h3⟩, h4⟩ := h
  refine ⟨fun c hc => ?_, h2, h3, fun r hr => ?_⟩
  · have := List.all_eq_true.1 h1 c hc
    simp only [Bool.or_eq_true, beq_iff_eq, Bool.and_eq_true, decide_eq_true_eq] at this
    exact this
  · rw [hr] at h4
    simp only [Bool.and_eq_true] at h4
    obtain ⟨t, rfl⟩ := List.isPrefixOf_iff_prefix.1 h4.1
    have h5 := h4.2
    rw [show ((['d', 'e', 'f', 'i', 'n', 'e'] ++ t).drop 6) = t from rfl] at h5
    cases t with
    | nil => simp at h5
    | cons b t =>
      refine ⟨b, t, rfl, ?_⟩
      simpa [isBlank] using h5

/-- A test for consistent definitions. -/
def consistentTest (lines : List (List Char)) : Bool :=
  (lines.filterMap fun l => cDirective (cut l)).all fun p =>
    (lines.filterMap fun l => cDirective (cut l)).all fun q => p.1 != q.1 || p.2 == q.2

lemma consistent_of_test (lines : List (List Char)) (h : consistentTest lines = true) : Consistent lines := by
  intro l hl l' hl' n b b' e e'
  have := List.all_eq_true.1 (List.all_eq_true.1 h (n, b) (List.mem_filterMap.2 ⟨l, hl, e⟩)) (n, b')
    (List.mem_filterMap.2 ⟨l', hl', e'⟩)
  simpa using this

lemma header_plain : (header.all plainTest && consistentTest header &&
    header.all fun l => (cDirective l).all fun p =>
      ["30".toList, "7".toList, "36.0".toList, "1".toList, "10".toList].contains p.2) = true := by
  decide +kernel

/-- **C148.** The header as it is meets the hypotheses of `C148_agree_partial` and `C148_import`. -/
theorem C148_witness : (∀ l ∈ header, Plain l) ∧ Consistent header ∧
    ∀ l ∈ header, ∀ n body, cDirective l = some (n, body) →
      (∃ w, CNum body w ∧ ¬ Octal body) ∨ (body = [] ∧ ∀ c, l.getLast? = some c → isBlank c = false) := by
  have hh := header_plain
  generalize header = H at hh ⊢
  simp only [Bool.and_eq_true] at hh
  obtain ⟨⟨h1, h2⟩, h3⟩ := hh
  refine ⟨fun l hl => plain_of_test l (List.all_eq_true.1 h1 l hl), consistent_of_test H h2, fun l hl n body e => .inl ?_⟩
  have := List.all_eq_true.1 h3 l hl
  rw [e, Option.all_some, List.contains_iff_mem] at this
  have hint : ∀ ds : List Char, ds ≠ [] → (ds.all isDigit = true) → (ds.head? ≠ some '0') →
      ∃ w, CNum ds w ∧ ¬ Octal ds := by
    intro ds h0 hd hz
    refine ⟨_, .bare _ _ (.dec ds h0 ((digits_iff _).2 hd) (.inl hz)), ?_⟩
    rintro ⟨es, -, -, rfl | rfl | rfl⟩
    · exact hz rfl
    · revert hd; simp [isDigit]
    · revert hd; simp [isDigit]
  simp only [List.mem_cons, List.not_mem_nil, or_false] at this
  rcases this with rfl | rfl | rfl | rfl | rfl
  · exact hint _ (by decide) (by decide) (by decide)
  · exact hint _ (by decide) (by decide) (by decide)
  · refine ⟨_, .bare _ _ (.point ['3', '6'] ['0'] (by simp) ((digits_iff _).2 (by decide)) ((digits_iff _).2 (by decide))),
      ?_⟩
    rintro ⟨es, -, hd, e | e | e⟩
    · exact absurd (List.cons.inj e).1 (by decide)
    · exact absurd (List.cons.inj e).1 (by decide)
    · exact absurd (List.cons.inj e).1 (by decide)
  · exact hint _ (by decide) (by decide) (by decide)
  · exact hint _ (by decide) (by decide) (by decide)

/-! ## Where they part -/

/-- **C148.** With a zero in front Python reads a decimal number and C an octal one, without notice. -/
theorem C148_octal_refuted : (∀ l ∈ ["#define MAXBANDS 030".toList], Plain l) ∧
    (pyImport ["#define MAXBANDS 030".toList]).map (fun d => d "MAXBANDS".toList) = some (some (.int 30)) ∧
    cMacros ["#define MAXBANDS 030".toList] "MAXBANDS".toList = some "030".toList ∧
    CNum "030".toList (.int 24) := by
  refine ⟨?_, by decide +kernel, by decide +kernel, ?_⟩
  · intro l hl
    rw [List.mem_singleton] at hl
    subst hl
    exact plain_of_test _ (by decide +kernel)
  · exact .bare _ _ (.oct ['3', '0'] (by decide) ((digits_iff _).2 (by decide)) (by decide))

/-- **C148.** A definition in a block comment, in a continued line comment, or with a blank after `#` is one for one of
the two only. -/
theorem C148_shape_refuted :
    ((pyImport ["/*".toList, "#define MAXBANDS 30".toList, "*/".toList]).map (fun d => d "MAXBANDS".toList) =
        some (some (.int 30)) ∧
      cMacros ["/*".toList, "#define MAXBANDS 30".toList, "*/".toList] "MAXBANDS".toList = none) ∧
    ((pyImport ["// see \\".toList, "#define MAXBANDS 30".toList]).map (fun d => d "MAXBANDS".toList) =
        some (some (.int 30)) ∧
      cMacros ["// see \\".toList, "#define MAXBANDS 30".toList] "MAXBANDS".toList = none) ∧
    ((pyImport ["# define MAXBANDS 30".toList]).map (fun d => d "MAXBANDS".toList) = some none ∧
      cMacros ["# define MAXBANDS 30".toList] "MAXBANDS".toList = some "30".toList) := by
  refine ⟨⟨?_, ?_⟩, ⟨?_, ?_⟩, ?_, ?_⟩ <;> decide +kernel

/-- **C148.** What the compiler accepts and the import does not: a suffix, parentheses, two blanks behind a macro
without replacement. One blank is accepted. -/
theorem C148_raises : pyImport ["#define MAX_EXP_ARG 36.0f".toList] = none ∧
    pyImport ["#define MAXBANDS (30)".toList] = none ∧
    pyImport ["#define GUARD  ".toList] = none ∧
    (pyImport ["#define GUARD ".toList]).map (fun d => d "GUARD".toList) = some none ∧
    (pyImport ["#define GUARD".toList]).map (fun d => d "GUARD".toList) = some none ∧
    (pyImport ["#define A 1_0".toList]).map (fun d => d "A".toList) = some (some (.int 10)) ∧
    (pyImport ["#define A -Inf ".toList]).map (fun d => d "A".toList) = some (some .special) ∧
    (pyImport ["#define A +2.5E-1".toList]).map (fun d => d "A".toList) = some (some (.dec (1 / 4))) := by
  refine ⟨?_, ?_, ?_, ?_, ?_, ?_, ?_, ?_⟩
  · rw [← Option.map_eq_none_iff (f := fun d => d [])]; decide +kernel
  · rw [← Option.map_eq_none_iff (f := fun d => d [])]; decide +kernel
  · rw [← Option.map_eq_none_iff (f := fun d => d [])]; decide +kernel
  all_goals decide +kernel

end Forcepho.Limits
