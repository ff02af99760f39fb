import Verif.Limits.Numbers
import Mathlib.Data.List.Infix

/-!
# One line of the header

The regular expression and the preprocessor find the same name and the same replacement on a plain line.
-/

set_option autoImplicit false

namespace Forcepho.Limits

/-- A line of printable characters and tabs, without the start of a block comment, not continued on the next line,
where a directive is `#define`, written without blanks inside. -/
structure Plain (l : List Char) : Prop where
  chars : ∀ c ∈ l, c = '\t' ∨ (' '.toNat ≤ c.toNat ∧ c.toNat ≤ '~'.toNat)
  block : ¬ ['/', '*'] <:+: l
  cont : l.getLast? ≠ some '\\'
  dir : ∀ r, l.dropWhile isBlank = '#' :: r →
    ∃ b r', r = ['d', 'e', 'f', 'i', 'n', 'e'] ++ b :: r' ∧ (b = ' ' ∨ b = '\t')

/-! ## The regular expression -/

lemma star_inv {α : Type} (p : Char → Bool) (k : List Char → List Char → Option α) (xs : List Char) :
    ∀ (acc : List Char) (r : α), star p k acc xs = some r →
      ∃ u v, xs = u ++ v ∧ u.all p = true ∧ k (acc ++ u) v = some r := by
  induction xs with
  | nil => intro acc r h; exact ⟨[], [], rfl, rfl, by simpa [star] using h⟩
  | cons c t ih =>
    intro acc r h
    rw [star] at h
    split at h
    · rename_i hc
      rcases Option.or_eq_some_iff.1 h with h | ⟨_, h⟩
      · obtain ⟨u, v, rfl, hu, hk⟩ := ih _ _ h
        exact ⟨c :: u, v, rfl, by simp [hc, hu], by simpa using hk⟩
      · exact ⟨[], _, rfl, rfl, by simpa using h⟩
    · exact ⟨[], _, rfl, rfl, by simpa using h⟩

lemma star_some {α : Type} (p : Char → Bool) (k : List Char → List Char → Option α) (u v : List Char)
    (hu : u.all p = true) : ∀ acc, (k (acc ++ u) v).isSome = true → (star p k acc (u ++ v)).isSome = true := by
  induction u with
  | nil =>
    intro acc h
    rw [List.append_nil] at h
    cases v with
    | nil => simpa [star] using h
    | cons c t =>
      rw [List.nil_append, star]
      split
      · simp [h]
      · exact h
  | cons c t ih =>
    intro acc h
    simp only [List.all_cons, Bool.and_eq_true] at hu
    rw [List.cons_append, star, if_pos hu.1, Option.isSome_or, ih hu.2 _ (by simpa using h)]
    rfl

lemma star_total {α : Type} (p : Char → Bool) (k : List Char → List Char → Option α)
    (hk : ∀ a b, (k a b).isSome = true) (xs : List Char) :
    ∀ acc, star p k acc xs = k (acc ++ xs.takeWhile p) (xs.dropWhile p) := by
  induction xs with
  | nil => intro acc; simp [star]
  | cons c t ih =>
    intro acc
    rw [star]
    split
    · rename_i hc
      rw [ih, List.takeWhile_cons_of_pos hc, List.dropWhile_cons_of_pos hc]
      simp [Option.or_of_isSome (hk _ _)]
    · rename_i hc
      rw [List.takeWhile_cons_of_neg hc, List.dropWhile_cons_of_neg hc, List.append_nil]

lemma plus_inv {α : Type} (p : Char → Bool) (k : List Char → List Char → Option α) (xs : List Char) (r : α)
    (h : plus p k xs = some r) : ∃ u v, xs = u ++ v ∧ u ≠ [] ∧ u.all p = true ∧ k u v = some r := by
  cases xs with
  | nil => simp [plus] at h
  | cons c t =>
    rw [plus] at h
    split at h
    · rename_i hc
      obtain ⟨u, v, rfl, hu, hk⟩ := star_inv p k t _ _ h
      exact ⟨c :: u, v, rfl, by simp, by simp [hc, hu], by simpa using hk⟩
    · simp at h

lemma plus_some {α : Type} (p : Char → Bool) (k : List Char → List Char → Option α) (u v : List Char) (hn : u ≠ [])
    (hu : u.all p = true) (hk : (k u v).isSome = true) : (plus p k (u ++ v)).isSome = true := by
  cases u with
  | nil => exact absurd rfl hn
  | cons c t =>
    simp only [List.all_cons, Bool.and_eq_true] at hu
    rw [List.cons_append, plus, if_pos hu.1]
    exact star_some p k t v hu.2 [c] (by simpa using hk)

/-- `.+` takes everything up to the end of the line. -/
lemma dot_inv (xs r : List Char) (n value : List Char) (hx : ∀ c ∈ r, c ≠ '\n')
    (h : plus notNewline (fun value _ => some (n, value)) (r ++ ['\n']) = some (n, value)) :
    value = r ∧ r ≠ [] := by
  have hr : ∀ c ∈ r, notNewline c = true := by
    intro c hc
    have := hx c hc
    simp only [notNewline, bne_iff_ne, ne_eq]
    intro e
    exact this (Char.ext (by have : c.val.toNat = 10 := e; exact UInt32.toNat_inj.1 this))
  cases r with
  | nil =>
    rw [List.nil_append, plus, if_neg (by decide)] at h
    exact absurd h (by simp)
  | cons c t =>
    rw [List.cons_append, plus, if_pos (hr c (List.mem_cons_self ..)), star_total _ _ (by simp)] at h
    have ht : (t ++ ['\n']).takeWhile notNewline = t := by
      rw [List.takeWhile_append_of_pos (fun k hk => hr k (List.mem_cons_of_mem _ hk))]
      have : List.takeWhile notNewline ['\n'] = [] := by decide
      simp [this]
    rw [ht] at h
    simp only [Option.some.injEq, Prod.mk.injEq, true_and] at h
    exact ⟨by simpa using h.symm, by simp⟩

/-- What the regular expression matches. -/
lemma regexp_inv (l name value : List Char) (hl : ∀ c ∈ l, c ≠ '\n') (h : regexp (l ++ ['\n']) = some (name, value)) :
    ∃ u w1 w2, l = u ++ (['#', 'd', 'e', 'f', 'i', 'n', 'e'] ++ (w1 ++ (name ++ (w2 ++ value)))) ∧
      u.all isSpace = true ∧ w1.all isSpace = true ∧ w1 ≠ [] ∧ name.all isWord = true ∧ name ≠ [] ∧
      w2.all isSpace = true ∧ w2 ≠ [] ∧ value ≠ [] := by
  obtain ⟨u, v, e, hu, k⟩ := star_inv _ _ _ _ _ h
  clear h
  rw [lit] at k
  split at k
  swap
  · simp at k
  rename_i hp
  obtain ⟨v1, rfl⟩ : ∃ v1, v = ['#', 'd', 'e', 'f', 'i', 'n', 'e'] ++ v1 := by
    obtain ⟨t, ht⟩ := List.isPrefixOf_iff_prefix.1 hp
    exact ⟨t, ht.symm⟩
  rw [List.drop_left] at k
  obtain ⟨w1, v2, rfl, hw1, hw1', k⟩ := plus_inv _ _ _ _ k
  obtain ⟨nm, v3, rfl, hnm, hnm', k⟩ := plus_inv _ _ _ _ k
  obtain ⟨w2, v4, rfl, hw2, hw2', k⟩ := plus_inv _ _ _ _ k
  have hnv : ∃ r, v4 = r ++ ['\n'] ∧ l = u ++ (['#', 'd', 'e', 'f', 'i', 'n', 'e'] ++ (w1 ++ (nm ++ (w2 ++ r)))) := by
    cases v4 using List.reverseRecOn with
    | nil => simp [plus] at k
    | append_singleton r c =>
      rw [show u ++ (['#', 'd', 'e', 'f', 'i', 'n', 'e'] ++ (w1 ++ (nm ++ (w2 ++ (r ++ [c]))))) =
        (u ++ (['#', 'd', 'e', 'f', 'i', 'n', 'e'] ++ (w1 ++ (nm ++ (w2 ++ r))))) ++ [c] by simp] at e
      obtain ⟨e1, e2⟩ := List.append_inj' e rfl
      exact ⟨r, by rw [(List.cons.inj e2).1], e1⟩
  obtain ⟨r, rfl, rfl⟩ := hnv
  have hname : nm = name := by
    obtain ⟨_, _, _, _, _, k⟩ := plus_inv _ _ _ _ k
    exact congrArg Prod.fst (Option.some.inj k)
  subst hname
  obtain ⟨rfl, hv⟩ := dot_inv [] r nm value (fun c hc => hl c (by simp [hc])) k
  exact ⟨u, w1, w2, rfl, hu, hw1', hw1, hnm', hnm, hw2', hw2, hv⟩

/-- What the regular expression does not miss. -/
lemma regexp_some (u w1 name w2 value : List Char) (hu : u.all isSpace = true) (hw1 : w1.all isSpace = true)
    (h1 : w1 ≠ []) (hn : name.all isWord = true) (h2 : name ≠ []) (hw2 : w2.all isSpace = true) (h3 : w2 ≠ [])
    (hv : value ≠ []) (hl : ∀ c ∈ value, c ≠ '\n') :
    (regexp (u ++ (['#', 'd', 'e', 'f', 'i', 'n', 'e'] ++ (w1 ++ (name ++ (w2 ++ (value ++ ['\n']))))))).isSome = true := by
  refine star_some _ _ u _ hu [] ?_
  rw [lit, if_pos (List.isPrefixOf_iff_prefix.2 (List.prefix_append _ _)), List.drop_left]
  refine plus_some _ _ w1 _ h1 hw1 (plus_some _ _ name _ h2 hn (plus_some _ _ w2 _ h3 hw2 ?_))
  refine plus_some notNewline _ value ['\n'] hv ?_ rfl
  rw [List.all_eq_true]
  intro c hc
  simp only [notNewline, bne_iff_ne, ne_eq]
  intro e
  exact hl c hc (Char.ext (by have : c.val.toNat = 10 := e; exact UInt32.toNat_inj.1 this))

/-! ## Comments -/

/-- A line without its line comment. -/
def cut : List Char → List Char
  | [] => []
  | [c] => [c]
  | a :: b :: t => if a = '/' ∧ b = '/' then [' '] else a :: cut (b :: t)

lemma cut_cases (l : List Char) : cut l = l ∨ ∃ p t, l = p ++ '/' :: '/' :: t ∧ cut l = p ++ [' '] := by
  induction l with
  | nil => exact .inl rfl
  | cons a l ih =>
    cases l with
    | nil => exact .inl rfl
    | cons b t =>
      rw [cut]
      split
      · rename_i h
        obtain ⟨rfl, rfl⟩ := h
        exact .inr ⟨[], t, rfl, rfl⟩
      · rcases ih with ih | ⟨p, t', e, ih⟩
        · left; rw [ih]
        · right; exact ⟨a :: p, t', by rw [e]; rfl, by rw [ih]; rfl⟩

lemma cut_left (u v : List Char) (h : '/' ∉ u) : cut (u ++ v) = u ++ cut v := by
  induction u with
  | nil => rfl
  | cons a t ih =>
    simp only [List.mem_cons, not_or] at h
    have ih := ih h.2
    rw [List.cons_append]
    cases hh : t ++ v with
    | nil =>
      rw [hh] at ih
      rw [cut, List.cons_append, ← ih]
      rfl
    | cons b r =>
      rw [cut, if_neg (fun hc => h.1 hc.1.symm), ← hh, ih]
      rfl

lemma cut_none (l : List Char) (h : '/' ∉ l) : cut l = l := by
  have := cut_left l [] h
  simpa [cut] using this

/-! ## Blanks -/

lemma space_of_blank (c : Char) (h : isBlank c = true) : isSpace c = true := by
  simp only [isBlank, Bool.or_eq_true, beq_iff_eq] at h
  rcases h with rfl | rfl <;> decide

lemma blank_of_space (c : Char) (h : c = '\t' ∨ (' '.toNat ≤ c.toNat ∧ c.toNat ≤ '~'.toNat))
    (hs : isSpace c = true) : isBlank c = true := by
  rcases h with rfl | ⟨h, -⟩
  · decide
  · have h : 32 ≤ c.toNat := h
    simp only [isSpace, Bool.or_eq_true, Bool.and_eq_true, beq_iff_eq, decide_eq_true_eq] at hs
    have : c.toNat = 32 := by omega
    have : c = ' ' := Char.ext (UInt32.toNat_inj.1 this)
    rw [this]; decide

/-- The printable characters and tab. -/
abbrev Printable (l : List Char) : Prop := ∀ c ∈ l, c = '\t' ∨ (' '.toNat ≤ c.toNat ∧ c.toNat ≤ '~'.toNat)

lemma Printable.blank_eq {l : List Char} (h : Printable l) : ∀ c ∈ l, isBlank c = isSpace c := by
  intro c hc
  rw [Bool.eq_iff_iff]
  exact ⟨space_of_blank c, blank_of_space c (h c hc)⟩

lemma dropWhile_congr' {α : Type} (p q : α → Bool) (l : List α) (h : ∀ c ∈ l, p c = q c) :
    l.dropWhile p = l.dropWhile q := by
  induction l with
  | nil => rfl
  | cons c t ih =>
    simp only [List.dropWhile_cons, h c (List.mem_cons_self ..), ih fun c hc => h c (List.mem_cons_of_mem _ hc)]

lemma Printable.trim_eq {l : List Char} (h : Printable l) : trim l = strip l := by
  rw [trim, strip, dropWhile_congr' _ _ _ h.blank_eq]
  congr 1
  refine dropWhile_congr' _ _ _ fun c hc => h.blank_eq c ?_
  exact (List.dropWhile_suffix _).subset (List.mem_reverse.1 hc)

lemma word_not_blank (c : Char) (h : isWord c = true) : isBlank c = false := by
  by_contra hb
  rw [Bool.not_eq_false] at hb
  simp only [isBlank, Bool.or_eq_true, beq_iff_eq] at hb
  rcases hb with rfl | rfl <;> revert h <;> decide

lemma blank_not_word (c : Char) (h : isBlank c = true) : isWord c = false := by
  by_contra hb
  rw [Bool.not_eq_false] at hb
  rw [word_not_blank c hb] at h
  exact absurd h (by simp)

lemma dropWhile_stop {α : Type} (p : α → Bool) (u v : List α) (hu : u.all p = true)
    (hv : ∀ c t, v = c :: t → p c = false) : (u ++ v).dropWhile p = v ∧ (u ++ v).takeWhile p = u := by
  induction u with
  | nil =>
    cases v with
    | nil => simp
    | cons c t => simp [hv c t rfl]
  | cons c t ih =>
    simp only [List.all_cons, Bool.and_eq_true] at hu
    have := ih hu.2
    simp [hu.1, this.1, this.2]

/-- What the preprocessor makes of a definition. -/
lemma cDirective_eval (u w1 name : List Char) (b : Char) (v : List Char) (hu : u.all isBlank = true)
    (hw1 : w1.all isBlank = true) (h1 : w1 ≠ []) (hn : name.all isWord = true) (h2 : name ≠ []) (hb : isBlank b = true) :
    cDirective (u ++ (['#', 'd', 'e', 'f', 'i', 'n', 'e'] ++ (w1 ++ (name ++ b :: v)))) = some (name, trim v) := by
  obtain ⟨n0, nt, rfl⟩ := List.exists_cons_of_ne_nil h2
  obtain ⟨w0, wt, rfl⟩ := List.exists_cons_of_ne_nil h1
  have e1 := (dropWhile_stop isBlank u (['#', 'd', 'e', 'f', 'i', 'n', 'e'] ++ ((w0 :: wt) ++ ((n0 :: nt) ++ b :: v))) hu
    (by intro c t h; obtain ⟨rfl, -⟩ := List.cons.inj h; decide)).1
  have hw0 : isBlank w0 = true := by simp only [List.all_cons, Bool.and_eq_true] at hw1; exact hw1.1
  have hn0 : isWord n0 = true := by simp only [List.all_cons, Bool.and_eq_true] at hn; exact hn.1
  have e2 := dropWhile_stop isWord ['d', 'e', 'f', 'i', 'n', 'e'] ((w0 :: wt) ++ ((n0 :: nt) ++ b :: v)) (by decide)
    (by intro c t h; obtain ⟨rfl, -⟩ := List.cons.inj h; exact blank_not_word _ hw0)
  have e3 := dropWhile_stop isBlank (w0 :: wt) ((n0 :: nt) ++ b :: v) hw1
    (by intro c t h; obtain ⟨rfl, -⟩ := List.cons.inj h; exact word_not_blank _ hn0)
  have e4 := dropWhile_stop isWord (n0 :: nt) (b :: v) hn
    (by intro c t h; obtain ⟨rfl, -⟩ := List.cons.inj h; exact blank_not_word _ hb)
  have e5 : (['d', 'e', 'f', 'i', 'n', 'e'] ++ ((w0 :: wt) ++ ((n0 :: nt) ++ b :: v))).dropWhile isBlank =
      ['d', 'e', 'f', 'i', 'n', 'e'] ++ ((w0 :: wt) ++ ((n0 :: nt) ++ b :: v)) := by
    rw [List.cons_append, List.dropWhile_cons_of_neg (by decide)]
  rw [cDirective, e1]
  simp only [List.cons_append, List.nil_append] at e2 e3 e4 e5 ⊢
  simp only [e5, e2.1, e2.2, e3.1, e4.1, e4.2, if_true, hb]

/-! ## Numbers have no slash -/

lemma clean_mem (s : List Char) : ∀ (b : Bool) (t : List Char), clean b s = some t → '/' ∈ s → '/' ∈ t := by
  induction s with
  | nil => intro b t _ h; simp at h
  | cons c s ih =>
    intro b t h hm
    rw [clean] at h
    split at h
    · rename_i hc
      subst hc
      split at h
      · rcases List.mem_cons.1 hm with hm | hm
        · exact absurd hm (by decide)
        · exact ih _ _ h hm
      · simp at h
    · obtain ⟨t', ht', rfl⟩ := Option.map_eq_some_iff.1 h
      rcases List.mem_cons.1 hm with hm | hm
      · exact List.mem_cons.2 (.inl hm)
      · exact List.mem_cons_of_mem _ (ih _ _ ht' hm)

lemma sign_mem (s : List Char) (h : '/' ∈ s) : '/' ∈ (sign s).2 := by
  rcases sign_cases s with ⟨r, rfl, e⟩ | ⟨r, rfl, e⟩ | e <;> rw [e]
  · rcases List.mem_cons.1 h with h | h
    exacts [absurd h (by decide), h]
  · rcases List.mem_cons.1 h with h | h
    exacts [absurd h (by decide), h]
  · exact h

lemma mem_strip (s : List Char) (h : '/' ∈ s) : '/' ∈ strip s := by
  have key : ∀ s : List Char, '/' ∈ s → '/' ∈ s.dropWhile isSpace := by
    intro s
    induction s with
    | nil => intro h; simp at h
    | cons c t ih =>
      intro h
      rw [List.dropWhile_cons]
      split
      · rename_i hc
        rcases List.mem_cons.1 h with rfl | h
        · exact absurd hc (by decide)
        · exact ih h
      · exact h
  exact List.mem_reverse.2 (key _ (List.mem_reverse.2 (key _ h)))

/-- A text with a slash is no number. -/
lemma pyValue_slash (value : List Char) (h : '/' ∈ value) : pyValue value = none := by
  have h := mem_strip _ h
  rw [pyValue, pyInt, pyFloat]
  cases hc : clean false (strip value) with
  | none => rfl
  | some s =>
    have hs := sign_mem _ (clean_mem _ _ _ hc h)
    have hnd : ¬ (sign s).2.all isDigit = true := not_all_digits _ '/' hs (by decide)
    simp only [Option.bind_some]
    rw [if_neg (fun hh => hnd hh.2)]
    have hm : '/' ∈ (sign s).2.map lower := List.mem_map.2 ⟨'/', hs, by decide⟩
    rw [if_neg (by rintro (e | e | e) <;> (rw [e] at hm; revert hm; decide))]
    cases hq : pyDecimal (sign s).2 with
    | none => rfl
    | some q =>
      have := (pyDecimal_inv _ _ hq (fun hh => hnd hh.2)).chars _ hs
      exact absurd this (by decide)

lemma pyValue_blank (value : List Char) (h : strip value = []) : pyValue value = none := by
  rw [pyValue, pyInt, pyFloat, h]
  decide

/-! ## One line -/

lemma Plain.no_newline {l : List Char} (h : Plain l) : ∀ c ∈ l, c ≠ '\n' := by
  rintro c hc rfl
  rcases h.chars _ hc with h | ⟨h, -⟩ <;> revert h <;> decide

lemma all_blank {l : List Char} (h : Printable l) (hs : l.all isSpace = true) : l.all isBlank = true := by
  rw [List.all_eq_true] at hs ⊢
  exact fun c hc => blank_of_space c (h c hc) (hs c hc)

lemma all_space {l : List Char} (hs : l.all isBlank = true) : l.all isSpace = true := by
  rw [List.all_eq_true] at hs ⊢
  exact fun c hc => space_of_blank c (hs c hc)

lemma strip_left (u v : List Char) (hu : u.all isSpace = true) : strip (u ++ v) = strip v := by
  rw [strip, strip, dropWhile_left _ _ _ hu]

/-- Where Python reads a number, the preprocessor finds the same name and text. -/
lemma line_value (l name value : List Char) (v : Val) (h : Plain l) (hr : regexp (l ++ ['\n']) = some (name, value))
    (hv : pyValue value = some v) : cDirective (cut l) = some (name, strip value) ∧ strip value ≠ [] := by
  obtain ⟨u, w1, w2, rfl, hu, hw1, h1, hn, h2, hw2, h3, h4⟩ := regexp_inv l name value h.no_newline hr
  have hch := h.chars
  obtain ⟨b, w2, rfl⟩ := List.exists_cons_of_ne_nil h3
  have hslash : '/' ∉ value := fun hm => by rw [pyValue_slash _ hm] at hv; exact absurd hv (by simp)
  have hsp : ∀ w : List Char, w.all isSpace = true → '/' ∉ w := by
    intro w hw hm
    exact absurd (List.all_eq_true.1 hw _ hm) (by decide)
  have hnm : '/' ∉ name := fun hm => absurd (List.all_eq_true.1 hn _ hm) (by decide)
  have hall : '/' ∉ u ++ (['#', 'd', 'e', 'f', 'i', 'n', 'e'] ++ (w1 ++ (name ++ ((b :: w2) ++ value)))) := by
    simp only [List.mem_append, not_or]
    exact ⟨hsp _ hu, by decide, hsp _ hw1, hnm, hsp _ hw2, hslash⟩
  have hev := cDirective_eval u w1 name b (w2 ++ value)
    (all_blank (fun c hc => hch c (by simp [hc])) hu) (all_blank (fun c hc => hch c (by simp [hc])) hw1) h1 hn h2
    (blank_of_space b (hch b (by simp)) (by simp only [List.all_cons, Bool.and_eq_true] at hw2; exact hw2.1))
  rw [cut_none _ hall, show (b :: w2) ++ value = b :: (w2 ++ value) from rfl, hev]
  have hp : Printable (w2 ++ value) := fun c hc => hch c (by
    rcases List.mem_append.1 hc with hc | hc <;> simp [hc])
  rw [hp.trim_eq, strip_left _ _ (by simp only [List.all_cons, Bool.and_eq_true] at hw2; exact hw2.2)]
  refine ⟨rfl, fun he => ?_⟩
  rw [pyValue_blank _ he] at hv
  exact absurd hv (by simp)

/-- Where Python sees nothing, the preprocessor finds at most a macro without replacement. -/
lemma line_none (l name body : List Char) (h : Plain l) (hr : regexp (l ++ ['\n']) = none)
    (hc : cDirective (cut l) = some (name, body)) : body = [] := by
  by_contra hb
  -- the line begins with the directive
  have hdir : ∃ u b r, l = u ++ (['#', 'd', 'e', 'f', 'i', 'n', 'e'] ++ b :: r) ∧ u.all isBlank = true ∧
      isBlank b = true := by
    have hsharp : ∃ r, (cut l).dropWhile isBlank = '#' :: r := by
      rw [cDirective] at hc
      split at hc
      · rename_i r hr; exact ⟨r, hr⟩
      · simp at hc
    have hsharp' : ∃ r, l.dropWhile isBlank = '#' :: r := by
      obtain ⟨r, hr⟩ := hsharp
      rcases cut_cases l with e | ⟨p, t, e, e'⟩
      · rw [e] at hr; exact ⟨r, hr⟩
      · rw [e'] at hr
        by_cases hp : p.all isBlank = true
        · rw [dropWhile_left _ _ _ hp] at hr
          rw [show List.dropWhile isBlank [' '] = [] by decide] at hr
          exact absurd hr (by simp)
        · have hp' : p.dropWhile isBlank ≠ [] := by
            intro h0
            have e0 := List.takeWhile_append_dropWhile (p := isBlank) (l := p)
            rw [h0, List.append_nil] at e0
            exact hp (by rw [← e0]; exact List.all_takeWhile)
          rw [List.dropWhile_append, if_neg (by simpa using hp')] at hr
          obtain ⟨c, t', hct⟩ := List.exists_cons_of_ne_nil hp'
          rw [hct] at hr
          obtain ⟨rfl, -⟩ := List.cons.inj hr
          refine ⟨t' ++ '/' :: '/' :: t, ?_⟩
          rw [e, List.dropWhile_append, if_neg (by simpa using hp'), hct]
          rfl
    obtain ⟨r, hr⟩ := hsharp'
    obtain ⟨b, r', rfl, hb'⟩ := h.dir r hr
    refine ⟨l.takeWhile isBlank, b, r', ?_, List.all_takeWhile, ?_⟩
    · conv_lhs => rw [← List.takeWhile_append_dropWhile (p := isBlank) (l := l), hr]
      rfl
    · rcases hb' with rfl | rfl <;> decide
  obtain ⟨u, b, r, rfl, hu, hbb⟩ := hdir
  have hus : '/' ∉ u ++ (['#', 'd', 'e', 'f', 'i', 'n', 'e'] ++ [b]) := by
    simp only [List.mem_append, not_or]
    refine ⟨fun hm => absurd (List.all_eq_true.1 hu _ hm) (by decide), by decide, ?_⟩
    intro hm
    rw [List.mem_singleton] at hm
    subst hm
    exact absurd hbb (by decide)
  have hcut : cut (u ++ (['#', 'd', 'e', 'f', 'i', 'n', 'e'] ++ b :: r)) =
      u ++ (['#', 'd', 'e', 'f', 'i', 'n', 'e'] ++ b :: cut r) := by
    have := cut_left _ r hus
    simpa using this
  rw [hcut] at hc
  -- the parts the preprocessor finds
  have hparts : ∃ w c t, cut r = w ++ (name ++ c :: t) ∧ w.all isBlank = true ∧ name.all isWord = true ∧ name ≠ [] ∧
      isBlank c = true ∧ trim t ≠ [] := by
    have e1 := (dropWhile_stop isBlank u (['#', 'd', 'e', 'f', 'i', 'n', 'e'] ++ b :: cut r) hu
      (by intro c t h; obtain ⟨rfl, -⟩ := List.cons.inj h; decide)).1
    have e2 := dropWhile_stop isWord ['d', 'e', 'f', 'i', 'n', 'e'] (b :: cut r) (by decide)
      (by intro c t h; obtain ⟨rfl, -⟩ := List.cons.inj h; exact blank_not_word _ hbb)
    have e5 : (['d', 'e', 'f', 'i', 'n', 'e'] ++ b :: cut r).dropWhile isBlank =
        ['d', 'e', 'f', 'i', 'n', 'e'] ++ b :: cut r := by
      rw [List.cons_append, List.dropWhile_cons_of_neg (by decide)]
    have e6 : (b :: cut r).dropWhile isBlank = (cut r).dropWhile isBlank := List.dropWhile_cons_of_pos hbb
    rw [cDirective, e1] at hc
    simp only [List.cons_append, List.nil_append] at e2 e5 hc
    simp only [e5, e2.1, e2.2, e6, if_true] at hc
    generalize hx : (cut r).dropWhile isBlank = x at hc
    have ex : cut r = (cut r).takeWhile isBlank ++ x := by rw [← hx, List.takeWhile_append_dropWhile]
    have en : x = x.takeWhile isWord ++ x.dropWhile isWord := List.takeWhile_append_dropWhile.symm
    split at hc
    · simp at hc
    · simp only [Option.some.injEq, Prod.mk.injEq] at hc
      exact absurd hc.2.symm hb
    · rename_i c t hd hn0
      split at hc
      · rename_i hbc
        simp only [Option.some.injEq, Prod.mk.injEq] at hc
        obtain ⟨rfl, rfl⟩ := hc
        refine ⟨(cut r).takeWhile isBlank, c, t, ?_, List.all_takeWhile, List.all_takeWhile, ?_, hbc, hb⟩
        · rw [← hd, ← en]; exact ex
        · intro h0
          exact hn0 h0
      · simp at hc
  obtain ⟨w, c, t, hw, hwb, hnw, hn, hbc, ht⟩ := hparts
  -- the same parts in the line itself
  have hr' : ∃ t0, r = w ++ (name ++ c :: t0) ∧ t0 ≠ [] := by
    rcases cut_cases r with e | ⟨p, t', e, e'⟩
    · rw [e] at hw
      refine ⟨t, hw, ?_⟩
      rintro rfl
      exact ht rfl
    · rw [e'] at hw
      have : ∃ t1, t = t1 ++ [' '] := by
        cases t using List.reverseRecOn with
        | nil => exact absurd rfl ht
        | append_singleton t1 d =>
          rw [show w ++ (name ++ c :: (t1 ++ [d])) = (w ++ (name ++ c :: t1)) ++ [d] by simp] at hw
          obtain ⟨-, e2⟩ := List.append_inj' hw rfl
          exact ⟨t1, by rw [(List.cons.inj e2).1]⟩
      obtain ⟨t1, rfl⟩ := this
      rw [show w ++ (name ++ c :: (t1 ++ [' '])) = (w ++ (name ++ c :: t1)) ++ [' '] by simp] at hw
      obtain ⟨rfl, -⟩ := List.append_inj' hw rfl
      exact ⟨t1 ++ '/' :: '/' :: t', by rw [e]; simp, by simp⟩
  obtain ⟨t0, rfl, ht0⟩ := hr'
  have := regexp_some u (b :: w) name [c] t0 (all_space hu) (all_space (by simp [hbb, hwb])) (by simp) hnw hn
    (all_space (by simp [hbc])) (by simp) ht0 (fun k hk => h.no_newline k (by simp [hk]))
  rw [show u ++ (['#', 'd', 'e', 'f', 'i', 'n', 'e'] ++ (b :: w ++ (name ++ ([c] ++ (t0 ++ ['\n']))))) =
    u ++ (['#', 'd', 'e', 'f', 'i', 'n', 'e'] ++ b :: (w ++ (name ++ c :: t0))) ++ ['\n'] by simp, hr] at this
  exact absurd this (by simp)

end Forcepho.Limits
