import Verif.Limits.Props

/-!
# C148, second part: texts of numbers and block comments
-/

set_option autoImplicit false

namespace Forcepho.Limits

/-! ## Block comments -/

lemma splice_append (p T : List Char) (h : '\\' ∉ p) : splice (p ++ T) = p ++ splice T := by
  induction p with
  | nil => rfl
  | cons a p ih =>
    have ha : a ≠ '\\' := fun e => h (by simp [e])
    have ih := ih fun hm => h (List.mem_cons_of_mem _ hm)
    cases hp : p ++ T with
    | nil =>
      obtain ⟨rfl, rfl⟩ := List.append_eq_nil_iff.1 hp
      simp [splice]
    | cons b t =>
      rw [List.cons_append, hp, splice, if_neg fun e => ha e.1, ← hp, ih]
      rfl

lemma uncomment_block (p T : List Char) (h : ¬ ['*', '/'] <:+: p) (hl : p.getLast? ≠ some '*') :
    uncomment .block (p ++ '*' :: '/' :: T) = uncomment .code T := by
  induction p with
  | nil => rw [List.nil_append, uncomment, if_pos ⟨rfl, rfl⟩]
  | cons a p ih =>
    cases p with
    | nil =>
      have ha : a ≠ '*' := by
        rintro rfl
        exact hl rfl
      rw [List.cons_append, List.nil_append, uncomment, if_neg fun e => ha e.1]
      exact ih (by
        intro hi
        have := hi.length_le
        simp at this) (by simp)
    | cons b t =>
      have hab : ¬ (a = '*' ∧ b = '/') := by
        rintro ⟨rfl, rfl⟩
        exact h ⟨[], t, rfl⟩
      have ih := ih (fun hi => h (hi.trans ((List.suffix_cons a (b :: t)).isInfix))) (by simpa using hl)
      rw [List.cons_append, List.cons_append, uncomment, if_neg hab]
      exact ih

/-- **C148.** What stands in a block comment defines nothing for the compiler, whatever it says. -/
theorem C148_block (ls rest : List (List Char)) (h1 : ¬ ['*', '/'] <:+: ls.flatMap (· ++ ['\n'])) (h2 : ∀ l ∈ ls, '\\' ∉ l) :
    cMacros (['/', '*'] :: ls ++ ['*', '/'] :: rest) = cMacros rest := by
  have hb : '\\' ∉ '/' :: '*' :: '\n' :: ls.flatMap (· ++ ['\n']) ++ ['*', '/', '\n'] := by
    simp only [List.mem_append, List.mem_cons, List.mem_flatMap, List.not_mem_nil, or_false, not_or, not_exists, not_and]
    refine ⟨⟨by decide, by decide, by decide, fun l hl => ⟨h2 l hl, by decide⟩⟩, by decide, by decide, by decide⟩
  have e : text (['/', '*'] :: ls ++ ['*', '/'] :: rest) =
      ('/' :: '*' :: '\n' :: ls.flatMap (· ++ ['\n']) ++ ['*', '/', '\n']) ++ text rest := by
    simp [text]
  have hl : ('\n' :: ls.flatMap (· ++ ['\n'])).getLast? ≠ some '*' := by
    rcases List.eq_nil_or_concat ls with rfl | ⟨ls', l, rfl⟩
    · decide
    · have : '\n' :: (ls' ++ [l]).flatMap (· ++ ['\n']) = ('\n' :: (ls'.flatMap (· ++ ['\n']) ++ l)) ++ ['\n'] := by simp
      rw [List.concat_eq_append, this, List.getLast?_concat]
      decide
  have hi : ¬ ['*', '/'] <:+: '\n' :: ls.flatMap (· ++ ['\n']) := by
    intro hi
    rcases List.infix_cons_iff.1 hi with hp | hp
    · obtain ⟨t, ht⟩ := hp
      have := (List.cons.inj ht).1
      revert this
      decide
    · exact h1 hp
  have hu : uncomment .code (splice (text (['/', '*'] :: ls ++ ['*', '/'] :: rest))) =
      ' ' :: uncomment .code ('\n' :: splice (text rest)) := by
    rw [e, splice_append _ _ hb]
    rw [show ('/' :: '*' :: '\n' :: ls.flatMap (· ++ ['\n']) ++ ['*', '/', '\n']) ++ splice (text rest) =
      '/' :: '*' :: (('\n' :: ls.flatMap (· ++ ['\n'])) ++ '*' :: '/' :: ('\n' :: splice (text rest))) by simp]
    rw [uncomment, if_neg (by decide), if_pos ⟨rfl, rfl⟩, uncomment_block _ _ hi hl]
  have hn : ∀ t : List Char, uncomment .code ('\n' :: t) = '\n' :: uncomment .code t := by
    intro t
    cases t with
    | nil => simp [uncomment]
    | cons c t =>
      rw [uncomment, if_neg (fun e => absurd e.1 (by decide)), if_neg (fun e => absurd e.1 (by decide))]
  have hs : splitLines (uncomment .code (splice (text (['/', '*'] :: ls ++ ['*', '/'] :: rest)))) =
      [' '] :: splitLines (uncomment .code (splice (text rest))) := by
    rw [hu, hn, splitLines, if_neg (by decide), splitLines, if_pos rfl]
  rw [cMacros, hs, List.foldl_cons]
  rfl

/-- With a definition inside: the compiler sees none, and Python defines it. -/
example : cMacros [['/', '*'], "#define MAXBANDS 30".toList, ['*', '/']] = cMacros [] :=
  C148_block ["#define MAXBANDS 30".toList] [] (by decide) (by decide)

/-! ## Numbers -/

lemma strip_id (s : List Char) (h : ∀ c ∈ s, isSpace c = false) : strip s = s := by
  have key : ∀ s : List Char, (∀ c ∈ s, isSpace c = false) → s.dropWhile isSpace = s := by
    intro s hs
    cases s with
    | nil => rfl
    | cons a t => rw [List.dropWhile_cons_of_neg (by simp [hs a (by simp)])]
  rw [strip, key s h, key _ (fun c hc => h c (List.mem_reverse.1 hc)), List.reverse_reverse]

lemma clean_plain (s : List Char) (h : '_' ∉ s) : ∀ prev, clean prev s = some s := by
  induction s with
  | nil => intro; rfl
  | cons a t ih =>
    intro prev
    rw [clean, if_neg (fun e => h (by simp [e])), ih fun hm => h (List.mem_cons_of_mem _ hm)]
    rfl

lemma space_spec (c : Char) : isSpace c = true ↔ c.toNat ∈ [9, 10, 11, 12, 13, 28, 29, 30, 31, 32] := by
  simp only [isSpace, Bool.or_eq_true, Bool.and_eq_true, beq_iff_eq, decide_eq_true_eq, List.mem_cons, List.not_mem_nil,
    or_false]
  omega

lemma digit_spec (c : Char) : isDigit c = true ↔ 48 ≤ c.toNat ∧ c.toNat ≤ 57 := by
  simp [isDigit]

lemma toLower_letter (c d : Char) (h : c.toLower = d) (hd : 97 ≤ d.toNat ∧ d.toNat ≤ 122) :
    lower c = d ∧ ((65 ≤ c.toNat ∧ c.toNat ≤ 90) ∨ (97 ≤ c.toNat ∧ c.toNat ≤ 122)) := by
  subst h
  by_cases hu : 65 ≤ c.toNat ∧ c.toNat ≤ 90
  · have hv : c.val ≥ 'A'.val ∧ c.val ≤ 'Z'.val := by
      simp only [ge_iff_le, UInt32.le_iff_toNat_le]
      exact hu
    refine ⟨?_, .inl hu⟩
    have e1 : c.toLower.toNat = c.toNat + 32 := by
      have : c.toLower.val = c.val + ('a'.val - 'A'.val) := by
        rw [Char.toLower, dif_pos hv]
      rw [Char.toNat, this, UInt32.toNat_add]
      have h2 : ('a'.val - 'A'.val).toNat = 32 := by decide
      have h3 : c.val.toNat ≤ 90 := hu.2
      rw [h2, Nat.mod_eq_of_lt (by omega)]
      rfl
    rw [lower, if_pos (by simp [hu.1, hu.2]), ← e1, Char.ofNat_toNat]
  · have hv : ¬ (c.val ≥ 'A'.val ∧ c.val ≤ 'Z'.val) := by
      simp only [ge_iff_le, UInt32.le_iff_toNat_le]
      exact hu
    have e1 : c.toLower = c := by rw [Char.toLower, dif_neg hv]
    rw [e1] at hd ⊢
    refine ⟨?_, .inr hd⟩
    rw [lower, if_neg]
    simp only [Bool.and_eq_true, decide_eq_true_eq]
    exact hu

/-- **C148.** The words for infinity and for no number are read as floats in any mixture of capitals, behind any sign: a macro
with such a replacement does not stop the import. -/
theorem C148_special (s : List Char) (h : s.map Char.toLower = "inf".toList ∨ s.map Char.toLower = "infinity".toList ∨
    s.map Char.toLower = "nan".toList) :
    pyValue s = some .special ∧ pyValue ('-' :: s) = some .special ∧ pyValue ('+' :: s) = some .special := by
  have hlet : ∀ c ∈ s, (lower c = c.toLower) ∧ ((65 ≤ c.toNat ∧ c.toNat ≤ 90) ∨ (97 ≤ c.toNat ∧ c.toNat ≤ 122)) := by
    intro c hc
    have hm : c.toLower ∈ s.map Char.toLower := List.mem_map_of_mem hc
    have : 97 ≤ c.toLower.toNat ∧ c.toLower.toNat ≤ 122 := by
      rcases h with h | h | h <;> rw [h] at hm <;> revert hm <;> generalize c.toLower = d <;> intro hm <;>
        simp at hm <;> aesop
    exact toLower_letter c _ rfl this
  have hlow : s.map lower = s.map Char.toLower := List.map_congr_left fun c hc => (hlet c hc).1
  have hsp : ∀ c ∈ s, isSpace c = false := by
    intro c hc
    rw [Bool.eq_false_iff, Ne, space_spec]
    have := (hlet c hc).2
    simp only [List.mem_cons, List.not_mem_nil, or_false]
    omega
  have hun : '_' ∉ s := by
    intro hc
    have := (hlet _ hc).2
    revert this
    decide
  have hne : s ≠ [] := by
    rintro rfl
    revert h
    decide
  obtain ⟨a, t, rfl⟩ := List.exists_cons_of_ne_nil hne
  have ha := (hlet a (by simp)).2
  have hdig : isDigit a = false := by
    rw [Bool.eq_false_iff, Ne, digit_spec]
    omega
  have hm : a ≠ '-' := by rintro rfl; revert ha; decide
  have hp : a ≠ '+' := by rintro rfl; revert ha; decide
  have hsign : sign (a :: t) = (1, a :: t) := by
    unfold sign
    split
    · next e => exact absurd (List.cons.inj e).1 hm
    · next e => exact absurd (List.cons.inj e).1 hp
    · rfl
  have hword : (a :: t).map lower = ['i', 'n', 'f'] ∨ (a :: t).map lower = ['i', 'n', 'f', 'i', 'n', 'i', 't', 'y'] ∨
      (a :: t).map lower = ['n', 'a', 'n'] := by
    rw [hlow]
    exact h
  have key : ∀ (u : List Char) (k : Int), strip u = u → '_' ∉ u → sign u = (k, a :: t) → pyValue u = some .special := by
    intro u k h1 h2 h3
    have hi : pyInt u = none := by
      rw [pyInt, h1, clean_plain u h2, Option.bind_some, h3, if_neg]
      simp [hdig]
    rw [pyValue, hi]
    simp only
    rw [pyFloat, h1, clean_plain u h2, Option.bind_some, h3]
    simp only
    rw [if_pos hword]
  refine ⟨key _ 1 (strip_id _ hsp) hun hsign, key _ (-1) (strip_id _ ?_) ?_ rfl, key _ 1 (strip_id _ ?_) ?_ rfl⟩
  · intro c hc
    rcases List.mem_cons.1 hc with rfl | hc
    · decide
    · exact hsp c hc
  · intro hc
    rcases List.mem_cons.1 hc with hc | hc
    · revert hc; decide
    · exact hun hc
  · intro c hc
    rcases List.mem_cons.1 hc with rfl | hc
    · decide
    · exact hsp c hc
  · intro hc
    rcases List.mem_cons.1 hc with hc | hc
    · revert hc; decide
    · exact hun hc

lemma clean_digits (a : List Char) (ha : ∀ c ∈ a, isDigit c = true) (r : List Char) (prev : Bool) :
    clean prev (a ++ r) = (clean (if a = [] then prev else true) r).map (a ++ ·) := by
  induction a generalizing prev with
  | nil => simp
  | cons c t ih =>
    have hc : c ≠ '_' := by
      rintro rfl
      exact absurd (ha '_' (by simp)) (by decide)
    rw [List.cons_append, clean, if_neg hc, ha c (by simp), ih (fun d hd => ha d (List.mem_cons_of_mem _ hd))]
    cases t <;> simp [Function.comp_def]

/-- **C148.** Python reads an underscore between two digits, which is an error to the compiler, as nothing; in front of the
digits, behind them, doubled or beside the point it raises. -/
theorem C148_underscore (a b : List Char) (ha : ∀ c ∈ a, 48 ≤ c.toNat ∧ c.toNat ≤ 57) (hb : ∀ c ∈ b, 48 ≤ c.toNat ∧ c.toNat ≤ 57)
    (ha0 : a ≠ []) (hb0 : b ≠ []) :
    pyValue (a ++ '_' :: b) = pyValue (a ++ b) ∧ pyValue ('_' :: b) = none ∧ pyValue (a ++ ['_']) = none ∧
    pyValue (a ++ '_' :: '_' :: b) = none ∧ pyValue (a ++ '_' :: '.' :: b) = none ∧ pyValue (a ++ '.' :: '_' :: b) = none := by
  have hda : ∀ c ∈ a, isDigit c = true := fun c hc => (digit_spec c).2 (ha c hc)
  have hdb : ∀ c ∈ b, isDigit c = true := fun c hc => (digit_spec c).2 (hb c hc)
  have hspd : ∀ c : Char, isDigit c = true → isSpace c = false := by
    intro c hc
    rw [digit_spec] at hc
    rw [Bool.eq_false_iff, Ne, space_spec]
    simp only [List.mem_cons, List.not_mem_nil, or_false]
    omega
  have hst : ∀ m : List Char, (∀ c ∈ m, isSpace c = false) → ∀ x y : List Char, (∀ c ∈ x, isDigit c = true) →
      (∀ c ∈ y, isDigit c = true) → strip (x ++ m ++ y) = x ++ m ++ y := by
    intro m hm x y hx hy
    apply strip_id
    intro c hc
    rcases List.mem_append.1 hc with hc | hc
    · rcases List.mem_append.1 hc with hc | hc
      · exact hspd c (hx c hc)
      · exact hm c hc
    · exact hspd c (hy c hc)
  have hnone : ∀ u, strip u = u → clean false u = none → pyValue u = none := by
    intro u h1 h2
    simp [pyValue, pyInt, pyFloat, h1, h2]
  obtain ⟨b0, bt, rfl⟩ := List.exists_cons_of_ne_nil hb0
  have hb0d := hdb b0 (by simp)
  have hub : '_' ∉ b0 :: bt := fun hm => absurd (hdb _ hm) (by decide)
  refine ⟨?_, ?_, ?_, ?_, ?_, ?_⟩
  · have s1 : strip (a ++ '_' :: b0 :: bt) = a ++ '_' :: b0 :: bt := by
      have := hst ['_'] (by decide) a (b0 :: bt) hda hdb
      simpa using this
    have s2 : strip (a ++ b0 :: bt) = a ++ b0 :: bt := by
      have := hst [] (by simp) a (b0 :: bt) hda hdb
      simpa using this
    have c1 : clean false (a ++ '_' :: b0 :: bt) = some (a ++ b0 :: bt) := by
      rw [clean_digits a hda, if_neg ha0, clean, if_pos rfl, if_pos (by simp [hb0d]), clean_plain _ hub]
      rfl
    have c2 : clean false (a ++ b0 :: bt) = some (a ++ b0 :: bt) := by
      rw [clean_digits a hda, clean_plain _ hub]
      rfl
    simp only [pyValue, pyInt, pyFloat, s1, s2, c1, c2]
  · apply hnone
    · have := hst ['_'] (by decide) [] (b0 :: bt) (by simp) hdb
      simpa using this
    · rw [clean, if_pos rfl, if_neg (by simp)]
  · apply hnone
    · have := hst ['_'] (by decide) a [] hda (by simp)
      simpa using this
    · rw [clean_digits a hda, if_neg ha0, clean, if_pos rfl, if_neg (by simp)]
      rfl
  · apply hnone
    · have := hst ['_', '_'] (by decide) a (b0 :: bt) hda hdb
      simpa using this
    · rw [clean_digits a hda, if_neg ha0, clean, if_pos rfl, if_neg (by
        have : isDigit '_' = false := by decide
        simp [this])]
      rfl
  · apply hnone
    · have := hst ['_', '.'] (by decide) a (b0 :: bt) hda hdb
      simpa using this
    · rw [clean_digits a hda, if_neg ha0, clean, if_pos rfl, if_neg (by
        have : isDigit '.' = false := by decide
        simp [this])]
      rfl
  · apply hnone
    · have := hst ['.', '_'] (by decide) a (b0 :: bt) hda hdb
      simpa using this
    · rw [clean_digits a hda, if_neg ha0, clean, if_neg (by decide), clean, if_pos rfl, if_neg (by
        have : isDigit '.' = false := by decide
        simp [this])]
      rfl

/-! ## Lines -/

lemma word_spec (c : Char) : isWord c = true ↔ c.isAlphanum = true ∨ c = '_' := by
  have h1 : ∀ a b : Char, a.val ≤ b.val ↔ a.toNat ≤ b.toNat := fun a b => UInt32.le_iff_toNat_le
  have h2 : c = '_' ↔ c.toNat = 95 := by
    constructor
    · rintro rfl
      rfl
    · intro h
      exact Char.ext (UInt32.toNat_inj.1 h)
  rw [h2]
  simp only [isWord, isDigit, Char.isAlphanum, Char.isAlpha, Char.isUpper, Char.isLower, Char.isDigit, Bool.or_eq_true,
    Bool.and_eq_true, decide_eq_true_eq, beq_iff_eq, ge_iff_le, h1]
  change _ ↔ ((((65 ≤ c.toNat ∧ c.toNat ≤ 90) ∨ (97 ≤ c.toNat ∧ c.toNat ≤ 122)) ∨ (48 ≤ c.toNat ∧ c.toNat ≤ 57)) ∨ c.toNat = 95)
  tauto

lemma split_unique (p : Char → Bool) (a b r t : List Char) (ha : a.all p = true) (hb : b.all p = true)
    (hr : ∀ c ∈ r.head?, p c = false) (ht : ∀ c ∈ t.head?, p c = false) (h : a ++ r = b ++ t) : a = b ∧ r = t := by
  have key : ∀ x y : List Char, x.all p = true → (∀ c ∈ y.head?, p c = false) → (x ++ y).takeWhile p = x := by
    intro x y hx hy
    rw [List.takeWhile_append_of_pos (fun c hc => List.all_eq_true.1 hx c hc)]
    cases y with
    | nil => simp
    | cons c y => rw [List.takeWhile_cons_of_neg (by simp [hy c rfl]), List.append_nil]
  have e : a = b := by rw [← key a r ha hr, h, key b t hb ht]
  subst e
  exact ⟨rfl, List.append_cancel_left h⟩

lemma head_append (a r : List Char) (ha : a ≠ []) {q : Char → Prop} (h : ∀ c ∈ a, q c) : ∀ c ∈ (a ++ r).head?, q c := by
  obtain ⟨x, t, rfl⟩ := List.exists_cons_of_ne_nil ha
  intro c hc
  simp only [List.cons_append, List.head?_cons, Option.mem_some_iff] at hc
  exact h c (by simp [hc])

lemma strip_front (w v : List Char) (hw : w.all isSpace = true) : strip (w ++ v) = strip v := by
  rw [strip, strip, List.dropWhile_append_of_pos (fun c hc => List.all_eq_true.1 hw c hc)]

/-- **C148.** A line that defines a macro of letters, digits and underscores as a decimal number, with any blanks around the name,
defines that name as that number in Python. A line whose name is followed by another character, such as a macro with parameters,
defines nothing. -/
theorem C148_line (d : Dict Val) (u w1 : List Char) (hu : ∀ c ∈ u, c.toNat ∈ [9, 11, 12, 13, 28, 29, 30, 31, 32])
    (hw1 : ∀ c ∈ w1, c.toNat ∈ [9, 11, 12, 13, 28, 29, 30, 31, 32]) (h1 : w1 ≠ []) (name : List Char)
    (hn : ∀ c ∈ name, c.isAlphanum = true ∨ c = '_') (h2 : name ≠ []) :
    (∀ w2 value : List Char, (∀ c ∈ w2, c.toNat ∈ [9, 11, 12, 13, 28, 29, 30, 31, 32]) → w2 ≠ [] →
      (∀ c ∈ value, 48 ≤ c.toNat ∧ c.toNat ≤ 57) → value ≠ [] →
      pyLine d (u ++ ("#define".toList ++ (w1 ++ (name ++ (w2 ++ value))))) =
        some (d.set name (.int (value.foldl (fun a c => 10 * a + (c.toNat - 48)) 0 : Nat)))) ∧
    (∀ (c : Char) (t : List Char), ¬ (c.isAlphanum = true ∨ c = '_') →
      c.toNat ∉ [9, 10, 11, 12, 13, 28, 29, 30, 31, 32] → '\n' ∉ t →
      pyLine d (u ++ ("#define".toList ++ (w1 ++ (name ++ (c :: t))))) = some d) := by
  have hsp : ∀ w : List Char, (∀ c ∈ w, c.toNat ∈ [9, 11, 12, 13, 28, 29, 30, 31, 32]) → w.all isSpace = true := by
    intro w hw
    rw [List.all_eq_true]
    intro c hc
    rw [space_spec]
    have := hw c hc
    simp only [List.mem_cons, List.not_mem_nil, or_false] at this ⊢
    omega
  have hnl : ∀ w : List Char, (∀ c ∈ w, c.toNat ∈ [9, 11, 12, 13, 28, 29, 30, 31, 32]) → ∀ c ∈ w, c ≠ '\n' := by
    rintro w hw c hc rfl
    exact absurd (hw _ hc) (by decide)
  have hnw : name.all isWord = true := List.all_eq_true.2 fun c hc => (word_spec c).2 (hn c hc)
  have hws : ∀ c, isWord c = true → isSpace c = false := by
    intro c hc
    rw [Bool.eq_false_iff, Ne, space_spec]
    simp only [isWord, isDigit, Bool.or_eq_true, Bool.and_eq_true, decide_eq_true_eq, beq_iff_eq] at hc
    simp only [List.mem_cons, List.not_mem_nil, or_false]
    omega
  have hsw : ∀ c, isSpace c = true → isWord c = false := by
    intro c hc
    by_contra h
    rw [Bool.not_eq_false] at h
    rw [hws c h] at hc
    exact absurd hc (by simp)
  have hnn : ∀ c ∈ name, c ≠ '\n' := by
    rintro c hc rfl
    exact absurd (hn _ hc) (by decide)
  have hdef : ∀ c ∈ "#define".toList, c ≠ '\n' := by decide
  have huniq : ∀ u' w1' r r' : List Char, u'.all isSpace = true → w1'.all isSpace = true → w1' ≠ [] →
      (∀ c ∈ r.head?, isSpace c = false) → (∀ c ∈ r'.head?, isSpace c = false) →
      u ++ ("#define".toList ++ (w1 ++ r)) = u' ++ ("#define".toList ++ (w1' ++ r')) → r = r' := by
    intro u' w1' r r' a1 a2 _ a4 a5 e
    obtain ⟨-, e⟩ := split_unique isSpace _ _ _ _ (hsp u hu) a1
      (head_append _ _ (by decide) (q := fun c => isSpace c = false) (by decide))
      (head_append _ _ (by decide) (q := fun c => isSpace c = false) (by decide)) e
    exact (split_unique isSpace _ _ _ _ (hsp w1 hw1) a2 a4 a5 (List.append_cancel_left e)).2
  constructor
  · intro w2 value hw2 h3 hv h4
    have hvd : ∀ c ∈ value, isDigit c = true := fun c hc => (digit_spec c).2 (hv c hc)
    have hvs : ∀ c ∈ value, isSpace c = false := by
      intro c hc
      exact hws c (by simp [isWord, hvd c hc])
    have hvn : ∀ c ∈ value, c ≠ '\n' := by
      rintro c hc rfl
      exact absurd (hvd _ hc) (by decide)
    set l := u ++ ("#define".toList ++ (w1 ++ (name ++ (w2 ++ value)))) with hl
    have hln : ∀ c ∈ l, c ≠ '\n' := by
      intro c hc
      simp only [hl, List.mem_append] at hc
      rcases hc with h | h | h | h | h | h
      · exact hnl u hu c h
      · exact hdef c h
      · exact hnl w1 hw1 c h
      · exact hnn c h
      · exact hnl w2 hw2 c h
      · exact hvn c h
    have hs := regexp_some u w1 name w2 value (hsp u hu) (hsp w1 hw1) h1 hnw h2 (hsp w2 hw2) h3 h4 hvn
    obtain ⟨⟨n', v'⟩, hr⟩ := Option.isSome_iff_exists.1 hs
    have hr' : regexp (l ++ ['\n']) = some (n', v') := by
      rw [← hr, hl]
      simp
    obtain ⟨u', w1', w2', e, b1, b2, b3, b4, b5, b6, b7, b8⟩ := regexp_inv l n' v' hln hr'
    have e1 := huniq u' w1' _ _ b1 b2 b3
      (head_append _ _ h2 fun c hc => hws c (List.all_eq_true.1 hnw c hc))
      (head_append _ _ b5 fun c hc => hws c (List.all_eq_true.1 b4 c hc)) e
    obtain ⟨e2, e3⟩ := split_unique isWord _ _ _ _ hnw b4
      (head_append _ _ h3 fun c hc => hsw c (List.all_eq_true.1 (hsp w2 hw2) c hc))
      (head_append _ _ b7 fun c hc => hsw c (List.all_eq_true.1 b6 c hc)) e1
    have hstrip : strip v' = value := by
      have := congrArg strip e3
      rw [strip_front w2 value (hsp w2 hw2), strip_front w2' v' b6, strip_id value hvs] at this
      exact this.symm
    have hub : '_' ∉ value := fun hm => absurd (hvd _ hm) (by decide)
    obtain ⟨x, t, rfl⟩ := List.exists_cons_of_ne_nil h4
    have hxm : x ≠ '-' := by
      rintro rfl
      exact absurd (hvd '-' (by simp)) (by decide)
    have hxp : x ≠ '+' := by
      rintro rfl
      exact absurd (hvd '+' (by simp)) (by decide)
    have hsign : sign (x :: t) = (1, x :: t) := by
      unfold sign
      split
      · next e => exact absurd (List.cons.inj e).1 hxm
      · next e => exact absurd (List.cons.inj e).1 hxp
      · rfl
    have hint : pyInt v' = some (number (x :: t) : Int) := by
      rw [pyInt, hstrip, clean_plain _ hub, Option.bind_some, hsign, if_pos ⟨by simp, List.all_eq_true.2 hvd⟩, one_mul]
    rw [pyLine, hr']
    simp only
    rw [pyValue, hint, e2]
    rfl
  · intro c t hc hcs ht
    have hcw : isWord c = false := by
      rw [Bool.eq_false_iff, Ne, word_spec]
      exact hc
    have hcsp : isSpace c = false := by
      rw [Bool.eq_false_iff, Ne, space_spec]
      exact hcs
    set l := u ++ ("#define".toList ++ (w1 ++ (name ++ (c :: t)))) with hl
    have hln : ∀ x ∈ l, x ≠ '\n' := by
      intro x hx
      simp only [hl, List.mem_append, List.mem_cons] at hx
      rcases hx with h | h | h | h | h | h
      · exact hnl u hu x h
      · exact hdef x h
      · exact hnl w1 hw1 x h
      · exact hnn x h
      · rintro rfl
        rw [← h] at hcs
        exact hcs (by decide)
      · rintro rfl
        exact ht h
    rw [pyLine]
    cases hr : regexp (l ++ ['\n']) with
    | none => rfl
    | some q =>
      exfalso
      obtain ⟨u', w1', w2', e, b1, b2, b3, b4, b5, b6, b7, b8⟩ := regexp_inv l q.1 q.2 hln hr
      have e1 := huniq u' w1' _ _ b1 b2 b3
        (head_append _ _ h2 fun c hc => hws c (List.all_eq_true.1 hnw c hc))
        (head_append _ _ b5 fun c hc => hws c (List.all_eq_true.1 b4 c hc)) e
      obtain ⟨-, e3⟩ := split_unique isWord _ _ _ _ hnw b4 (by simp [hcw])
        (head_append _ _ b7 fun c hc => hsw c (List.all_eq_true.1 b6 c hc)) e1
      obtain ⟨y, s, rfl⟩ := List.exists_cons_of_ne_nil b7
      rw [(List.cons.inj e3).1] at hcsp
      rw [List.all_eq_true.1 b6 y (by simp)] at hcsp
      exact absurd hcsp (by simp)

/-- A macro of `1_000` is a thousand. -/
example : pyValue "1_000".toList = pyValue "1000".toList := (C148_underscore ['1'] ['0', '0', '0'] (by decide) (by decide)
  (by decide) (by decide)).1

example : pyValue "NaN".toList = some .special := (C148_special _ (by decide)).1

end Forcepho.Limits
