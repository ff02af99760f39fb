import Verif.Limits.Model
import Mathlib.Data.Nat.Digits.Defs
import Mathlib.Tactic.Ring
import Mathlib.Tactic.NormNum

/-!
# Numbers of C and of Python

The specification of the constants of C (C++11 [lex.icon], [lex.fcon]) without suffix, and the proof that `int` and
`float` of Python read them in the same way but for octal constants.
-/

set_option autoImplicit false

namespace Forcepho.Limits

/-- The number with the digits `ds` to the base `b`. -/
def ofBase (b : Nat) (ds : List Char) : Nat := Nat.ofDigits b (ds.reverse.map fun c => c.toNat - 48)

/-- A list of decimal digits. -/
def Digits (ds : List Char) : Prop := ∀ c ∈ ds, '0'.toNat ≤ c.toNat ∧ c.toNat ≤ '9'.toNat

/-- An exponent ([lex.fcon]). -/
inductive CExp : List Char → Int → Prop
  | plain (c : Char) (ds : List Char) (hc : c = 'e' ∨ c = 'E') (hn : ds ≠ []) (hd : Digits ds) :
      CExp (c :: ds) (ofBase 10 ds)
  | pos (c : Char) (ds : List Char) (hc : c = 'e' ∨ c = 'E') (hn : ds ≠ []) (hd : Digits ds) :
      CExp (c :: '+' :: ds) (ofBase 10 ds)
  | neg (c : Char) (ds : List Char) (hc : c = 'e' ∨ c = 'E') (hn : ds ≠ []) (hd : Digits ds) :
      CExp (c :: '-' :: ds) (-(ofBase 10 ds))

/-- A constant of C and its value, an exact fraction for one with a point or an exponent. -/
inductive CLit : List Char → Val → Prop
  | dec (ds : List Char) (hn : ds ≠ []) (hd : Digits ds) (h0 : ds.head? ≠ some '0' ∨ ds = ['0']) :
      CLit ds (.int (ofBase 10 ds))
  | oct (ds : List Char) (hn : ds ≠ []) (hd : Digits ds) (h8 : ∀ c ∈ ds, c.toNat ≤ '7'.toNat) :
      CLit ('0' :: ds) (.int (ofBase 8 ds))
  | point (a b : List Char) (hn : a ≠ [] ∨ b ≠ []) (ha : Digits a) (hb : Digits b) :
      CLit (a ++ '.' :: b) (.dec (ofBase 10 (a ++ b) / 10 ^ b.length))
  | pointExp (a b e : List Char) (x : Int) (hn : a ≠ [] ∨ b ≠ []) (ha : Digits a) (hb : Digits b) (he : CExp e x) :
      CLit (a ++ '.' :: b ++ e) (.dec (ofBase 10 (a ++ b) / 10 ^ b.length * (10 : Rat) ^ x))
  | exp (a e : List Char) (x : Int) (hn : a ≠ []) (ha : Digits a) (he : CExp e x) :
      CLit (a ++ e) (.dec (ofBase 10 a * (10 : Rat) ^ x))

/-- The number with the other sign. -/
def Val.negate : Val → Val
  | .int n => .int (-n)
  | .dec q => .dec (-q)
  | .special => .special

/-- A constant with or without a sign. -/
inductive CNum : List Char → Val → Prop
  | bare (s : List Char) (v : Val) (h : CLit s v) : CNum s v
  | pos (s : List Char) (v : Val) (h : CLit s v) : CNum ('+' :: s) v
  | neg (s : List Char) (v : Val) (h : CLit s v) : CNum ('-' :: s) v.negate

/-- A zero followed by digits only, possibly after a sign: an octal constant, or none at all. -/
def Octal (s : List Char) : Prop :=
  ∃ ds, ds ≠ [] ∧ Digits ds ∧ (s = '0' :: ds ∨ s = '+' :: '0' :: ds ∨ s = '-' :: '0' :: ds)

/-! ## Digits -/

lemma isDigit_iff (c : Char) : isDigit c = true ↔ '0'.toNat ≤ c.toNat ∧ c.toNat ≤ '9'.toNat := by
  simp [isDigit]

lemma digits_iff (ds : List Char) : Digits ds ↔ ds.all isDigit = true := by
  simp only [Digits, List.all_eq_true, isDigit_iff]

lemma ofBase_append (b : Nat) (ds es : List Char) :
    ofBase b (ds ++ es) = ofBase b ds * b ^ es.length + ofBase b es := by
  simp only [ofBase, List.reverse_append, List.map_append, Nat.ofDigits_append, List.length_map, List.length_reverse]
  ring

lemma number_aux (ds : List Char) : ∀ a, ds.foldl (fun a c => 10 * a + (c.toNat - 48)) a =
    a * 10 ^ ds.length + ofBase 10 ds := by
  induction ds with
  | nil => intro a; simp [ofBase]
  | cons c t ih =>
    intro a
    rw [List.foldl_cons, ih, show c :: t = [c] ++ t from rfl, ofBase_append]
    simp only [List.length_cons, List.length_append, List.length_nil]
    simp only [ofBase, List.reverse_cons, List.reverse_nil, List.nil_append, List.map_cons, List.map_nil,
      Nat.ofDigits_singleton]
    ring

lemma number_eq (ds : List Char) : number ds = ofBase 10 ds := by
  rw [number, number_aux]; simp

/-! ## Stripping and underscores -/

/-- The characters that may stand in a number of C. -/
def numChar (c : Char) : Bool := isDigit c || c == '+' || c == '-' || c == '.' || c == 'e' || c == 'E'

lemma numChar_not_space (c : Char) (h : numChar c = true) : isSpace c = false := by
  simp only [numChar, Bool.or_eq_true, beq_iff_eq, isDigit_iff] at h
  rcases h with ((((h | rfl) | rfl) | rfl) | rfl) | rfl
  · have h1 : 48 ≤ c.toNat := h.1
    have h2 : c.toNat ≤ 57 := h.2
    simp [isSpace]; omega
  all_goals decide

lemma numChar_not_under (c : Char) (h : numChar c = true) : c ≠ '_' := by
  rintro rfl; revert h; decide

lemma dropWhile_left {α : Type} (p : α → Bool) (u v : List α) (hu : u.all p = true) :
    (u ++ v).dropWhile p = v.dropWhile p := by
  induction u with
  | nil => rfl
  | cons c t ih =>
    simp only [List.all_cons, Bool.and_eq_true] at hu
    rw [List.cons_append, List.dropWhile_cons_of_pos hu.1, ih hu.2]

/-- What is between white space is what is left. -/
lemma strip_between (u s v : List Char) (hu : u.all isSpace = true) (hv : v.all isSpace = true)
    (hs : ∀ c ∈ s, isSpace c = false) : strip (u ++ s ++ v) = s := by
  have key : ∀ s : List Char, (∀ c ∈ s, isSpace c = false) → s.dropWhile isSpace = s := by
    intro s hs
    cases s with
    | nil => rfl
    | cons c t => rw [List.dropWhile_cons_of_neg]; simp [hs c (List.mem_cons_self ..)]
  rw [strip, List.append_assoc, dropWhile_left _ _ _ hu]
  rcases s with _ | ⟨c, t⟩
  · have : v.dropWhile isSpace = [] := by
      have := dropWhile_left isSpace v [] hv
      simpa using this
    simp [this]
  · rw [List.cons_append, List.dropWhile_cons_of_neg (by simp [hs c (List.mem_cons_self ..)]), ← List.cons_append,
      List.reverse_append, dropWhile_left _ _ _ (by simpa using hv), key _ (fun k hk => hs k (List.mem_reverse.1 hk)),
      List.reverse_reverse]

lemma clean_id (s : List Char) (h : '_' ∉ s) : ∀ b, clean b s = some s := by
  induction s with
  | nil => intro b; rfl
  | cons c t ih =>
    intro b
    simp only [List.mem_cons, not_or] at h
    rw [clean, if_neg (fun e => h.1 e.symm), ih h.2]
    rfl

/-! ## From C to Python -/

lemma CExp.chars {e : List Char} {x : Int} (h : CExp e x) : ∀ c ∈ e, numChar c = true := by
  have hd : ∀ ds, Digits ds → ∀ c ∈ ds, numChar c = true := by
    intro ds h c hc
    simp [numChar, (isDigit_iff c).2 (h c hc)]
  have he : ∀ c, c = 'e' ∨ c = 'E' → numChar c = true := by rintro c (rfl | rfl) <;> decide
  cases h with
  | plain c ds hc hn h => intro k hk; rcases List.mem_cons.1 hk with rfl | hk; exacts [he _ hc, hd _ h _ hk]
  | pos c ds hc hn h =>
    intro k hk
    rcases List.mem_cons.1 hk with rfl | hk
    · exact he _ hc
    · rcases List.mem_cons.1 hk with rfl | hk
      exacts [by decide, hd _ h _ hk]
  | neg c ds hc hn h =>
    intro k hk
    rcases List.mem_cons.1 hk with rfl | hk
    · exact he _ hc
    · rcases List.mem_cons.1 hk with rfl | hk
      exacts [by decide, hd _ h _ hk]

lemma Digits.chars {ds : List Char} (h : Digits ds) : ∀ c ∈ ds, numChar c = true := by
  intro c hc
  simp [numChar, (isDigit_iff c).2 (h c hc)]

lemma CLit.chars {s : List Char} {v : Val} (h : CLit s v) : ∀ c ∈ s, numChar c = true := by
  cases h with
  | dec _ hn hd h0 => exact hd.chars
  | oct ds hn hd h8 =>
    intro k hk
    rcases List.mem_cons.1 hk with rfl | hk
    exacts [by decide, hd.chars _ hk]
  | point a b hn ha hb =>
    intro k hk
    rcases List.mem_append.1 hk with hk | hk
    · exact ha.chars _ hk
    · rcases List.mem_cons.1 hk with rfl | hk
      exacts [by decide, hb.chars _ hk]
  | pointExp a b e x hn ha hb he =>
    intro k hk
    rcases List.mem_append.1 hk with hk | hk
    · rcases List.mem_append.1 hk with hk | hk
      · exact ha.chars _ hk
      · rcases List.mem_cons.1 hk with rfl | hk
        exacts [by decide, hb.chars _ hk]
    · exact he.chars _ hk
  | exp a e x hn ha he =>
    intro k hk
    rcases List.mem_append.1 hk with hk | hk
    exacts [ha.chars _ hk, he.chars _ hk]

lemma CNum.chars {s : List Char} {v : Val} (h : CNum s v) : ∀ c ∈ s, numChar c = true := by
  cases h with
  | bare _ _ h => exact h.chars
  | pos s v h =>
    intro k hk
    rcases List.mem_cons.1 hk with rfl | hk
    exacts [by decide, h.chars _ hk]
  | neg s v h =>
    intro k hk
    rcases List.mem_cons.1 hk with rfl | hk
    exacts [by decide, h.chars _ hk]

/-- A text without a sign in front. -/
lemma sign_none (s : List Char) (h : ∀ c t, s = c :: t → c ≠ '+' ∧ c ≠ '-') : sign s = (1, s) := by
  unfold sign
  split
  · exact absurd rfl (h _ _ rfl).2
  · exact absurd rfl (h _ _ rfl).1
  · rfl

lemma Digits.no_sign {ds : List Char} (hd : Digits ds) : ∀ c t, ds = c :: t → c ≠ '+' ∧ c ≠ '-' := by
  rintro c t rfl
  have := hd c (List.mem_cons_self ..)
  constructor <;> (rintro rfl; revert this; decide)

lemma CExp.eval {e : List Char} {x : Int} (h : CExp e x) : exponent e = some x := by
  cases h with
  | plain c ds hc hn hd =>
    simp only [exponent, sign_none ds hd.no_sign]
    rw [if_pos ⟨hc, hn, (digits_iff _).1 hd⟩, number_eq, one_mul]
  | pos c ds hc hn hd =>
    simp only [exponent, sign]
    rw [if_pos ⟨hc, hn, (digits_iff _).1 hd⟩, number_eq, one_mul]
  | neg c ds hc hn hd =>
    simp only [exponent, sign]
    rw [if_pos ⟨hc, hn, (digits_iff _).1 hd⟩, number_eq, neg_one_mul]

lemma span_digits (a r : List Char) (ha : Digits a) (hr : ∀ c t, r = c :: t → isDigit c = false) :
    (a ++ r).takeWhile isDigit = a ∧ (a ++ r).dropWhile isDigit = r := by
  induction a with
  | nil =>
    cases r with
    | nil => simp
    | cons c t => simp [hr c t rfl]
  | cons c t ih =>
    have hc : isDigit c = true := (isDigit_iff c).2 (ha c (List.mem_cons_self ..))
    have := ih (fun c hc => ha c (List.mem_cons_of_mem _ hc))
    simp [hc, this.1, this.2]

lemma CExp.head {e : List Char} {x : Int} (h : CExp e x) :
    ∃ c t, e = c :: t ∧ (c = 'e' ∨ c = 'E') := by
  cases h with
  | plain c ds hc => exact ⟨c, ds, rfl, hc⟩
  | pos c ds hc => exact ⟨c, _, rfl, hc⟩
  | neg c ds hc => exact ⟨c, _, rfl, hc⟩

lemma CExp.not_digit {e : List Char} {x : Int} (h : CExp e x) : ∀ c t, e = c :: t → isDigit c = false := by
  obtain ⟨c, t, rfl, hc⟩ := h.head
  rintro c' t' h'
  obtain ⟨rfl, rfl⟩ := List.cons.inj h'
  rcases hc with rfl | rfl <;> decide

/-- A text with a character that is no digit is no integer. -/
lemma not_all_digits (s : List Char) (c : Char) (hc : c ∈ s) (h : isDigit c = false) : ¬ s.all isDigit = true := by
  simp only [List.all_eq_true, not_forall]
  exact ⟨c, hc, by simp [h]⟩

/-- What Python makes of a constant of C without a sign. -/
lemma CLit.eval {s : List Char} {v : Val} (h : CLit s v) (ho : ¬ ∃ ds, ds ≠ [] ∧ Digits ds ∧ s = '0' :: ds) :
    (∃ n, v = .int n ∧ s ≠ [] ∧ s.all isDigit = true ∧ n = number s) ∨
    (∃ q, v = .dec q ∧ ¬ s.all isDigit = true ∧ pyDecimal s = some q) := by
  have hpt : isDigit '.' = false := by decide
  cases h with
  | dec _ hn hd h0 => exact .inl ⟨_, rfl, hn, (digits_iff _).1 hd, by rw [number_eq]⟩
  | oct ds hn hd h8 => exact absurd ⟨ds, hn, hd, rfl⟩ ho
  | point a b hn ha hb =>
    refine .inr ⟨_, rfl, not_all_digits _ '.' (by simp) hpt, ?_⟩
    obtain ⟨h1, h2⟩ := span_digits a ('.' :: b) ha (by rintro c t h; obtain ⟨rfl, _⟩ := List.cons.inj h; exact hpt)
    obtain ⟨h3, h4⟩ := span_digits b [] hb (by simp)
    rw [List.append_nil] at h3 h4
    have hne : ¬ (a ++ b = []) := by simp only [List.append_eq_nil_iff, not_and_or]; exact hn
    simp only [pyDecimal, h1, h2, h3, h4, exponent, number_eq, if_neg hne, Option.map_some, zero_sub, zpow_neg,
      zpow_natCast, div_eq_mul_inv]
  | pointExp a b e x hn ha hb he =>
    refine .inr ⟨_, rfl, not_all_digits _ '.' (by simp) hpt, ?_⟩
    rw [List.append_assoc, List.cons_append]
    obtain ⟨h1, h2⟩ := span_digits a ('.' :: (b ++ e)) ha
      (by rintro c t h; obtain ⟨rfl, _⟩ := List.cons.inj h; exact hpt)
    obtain ⟨h3, h4⟩ := span_digits b e hb he.not_digit
    have hne : ¬ (a ++ b = []) := by simp only [List.append_eq_nil_iff, not_and_or]; exact hn
    simp only [pyDecimal, h1, h2, h3, h4, he.eval, number_eq, if_neg hne, Option.map_some]
    rw [zpow_sub₀ (by norm_num), zpow_natCast]
    congr 1
    ring
  | exp a e x hn ha he =>
    obtain ⟨c, t, rfl, hc⟩ := he.head
    have hcd : isDigit c = false := he.not_digit _ _ rfl
    refine .inr ⟨_, rfl, not_all_digits _ c (by simp) hcd, ?_⟩
    obtain ⟨h1, h2⟩ := span_digits a (c :: t) ha he.not_digit
    have hcp : c ≠ '.' := by rcases hc with rfl | rfl <;> decide
    rw [pyDecimal]
    simp only [h1, h2]
    split
    · rename_i r hr
      exact absurd (List.cons.inj hr).1 hcp
    · rw [if_neg hn, he.eval, number_eq]; rfl

/-- Constants are not the names of infinity or of no number. -/
lemma not_special (s : List Char) (h : ∀ c ∈ s, numChar c = true) :
    ¬ (s.map lower = ['i', 'n', 'f'] ∨ s.map lower = ['i', 'n', 'f', 'i', 'n', 'i', 't', 'y'] ∨
      s.map lower = ['n', 'a', 'n']) := by
  have key : ∀ c, numChar c = true → lower c ≠ 'n' := by
    intro c h
    simp only [numChar, Bool.or_eq_true, beq_iff_eq, isDigit_iff] at h
    rcases h with ((((h | rfl) | rfl) | rfl) | rfl) | rfl
    · have h1 : 48 ≤ c.toNat := h.1
      have h2 : c.toNat ≤ 57 := h.2
      rw [lower, if_neg (by simp; omega)]
      rintro rfl; revert h2; decide
    all_goals decide
  have hm : 'n' ∉ s.map lower := by
    intro hm
    obtain ⟨c, hc, e⟩ := List.mem_map.1 hm
    exact key c (h c hc) e
  rintro (e | e | e) <;> (rw [e] at hm; revert hm; decide)

lemma CLit.no_sign {s : List Char} {v : Val} (h : CLit s v) : ∀ c t, s = c :: t → c ≠ '+' ∧ c ≠ '-' := by
  have hd : ∀ c, isDigit c = true ∨ c = '.' → c ≠ '+' ∧ c ≠ '-' := by
    rintro c (h | rfl)
    · constructor <;> (rintro rfl; revert h; decide)
    · decide
  have happ : ∀ a b : List Char, Digits a → (∀ c t, b = c :: t → a = [] → c ≠ '+' ∧ c ≠ '-') →
      ∀ c t, a ++ b = c :: t → c ≠ '+' ∧ c ≠ '-' := by
    intro a b ha hb c t e
    cases a with
    | nil => exact hb c t e rfl
    | cons k l =>
      obtain ⟨rfl, _⟩ := List.cons.inj e
      exact hd _ (.inl ((isDigit_iff _).2 (ha _ (List.mem_cons_self ..))))
  cases h with
  | dec _ hn h h0 => exact h.no_sign
  | oct ds hn h h8 => rintro c t e; obtain ⟨rfl, _⟩ := List.cons.inj e; decide
  | point a b hn ha hb => exact happ _ _ ha (by rintro c t e _; obtain ⟨rfl, _⟩ := List.cons.inj e; decide)
  | pointExp a b e x hn ha hb he =>
    rw [List.append_assoc]
    exact happ _ _ ha (by rintro c t e _; obtain ⟨rfl, _⟩ := List.cons.inj e; decide)
  | exp a e x hn ha he => exact happ _ _ ha (fun c t e' h => absurd h hn)

/-- **C148.** A constant of C that is not octal, with white space around it, is read by Python as its value. -/
theorem C148_literal (u s v : List Char) (w : Val) (hu : u.all isSpace = true) (hv : v.all isSpace = true)
    (h : CNum s w) (ho : ¬ Octal s) : pyValue (u ++ s ++ v) = some w := by
  have hc := h.chars
  have hs : strip (u ++ s ++ v) = s := strip_between u s v hu hv fun c hm => numChar_not_space c (hc c hm)
  have hcl : clean false s = some s := clean_id s (fun hm => numChar_not_under _ (hc _ hm) rfl) _
  have main : ∀ (g : Int) (r : List Char) (w' : Val), sign s = (g, r) → CLit r w' → (∀ c ∈ r, numChar c = true) →
      (¬ ∃ ds, ds ≠ [] ∧ Digits ds ∧ r = '0' :: ds) →
      pyValue (u ++ s ++ v) = some (match w' with | .int n => .int (g * n) | .dec q => .dec (g * q) | .special => .special) := by
    intro g r w' hg hl hr hno
    simp only [pyValue, pyInt, pyFloat, hs, hcl, Option.bind_some, hg]
    rcases hl.eval hno with ⟨n, rfl, h1, h2, rfl⟩ | ⟨q, rfl, h1, h2⟩
    · rw [if_pos ⟨h1, h2⟩]
    · rw [if_neg (fun hh => h1 hh.2)]
      simp only [if_neg (not_special r hr), h2, Option.map_some]
  cases h with
  | bare _ _ hl =>
    rw [main 1 s w (sign_none s hl.no_sign) hl hc fun ⟨ds, h1, h2, h3⟩ => ho ⟨ds, h1, h2, .inl h3⟩]
    cases w <;> simp
  | pos s' v' hl =>
    rw [main 1 s' w rfl hl (fun c hm => hc c (List.mem_cons_of_mem _ hm))
      fun ⟨ds, h1, h2, h3⟩ => ho ⟨ds, h1, h2, .inr (.inl (by rw [h3]))⟩]
    cases w <;> simp
  | neg s' v' hl =>
    rw [main (-1) s' v' rfl hl (fun c hm => hc c (List.mem_cons_of_mem _ hm))
      fun ⟨ds, h1, h2, h3⟩ => ho ⟨ds, h1, h2, .inr (.inr (by rw [h3]))⟩]
    cases v' <;> simp [Val.negate]

/-! ## From Python to C -/

lemma sign_cases (s : List Char) :
    (∃ r, s = '-' :: r ∧ sign s = (-1, r)) ∨ (∃ r, s = '+' :: r ∧ sign s = (1, r)) ∨ sign s = (1, s) := by
  unfold sign
  split
  · exact .inl ⟨_, rfl, rfl⟩
  · exact .inr (.inl ⟨_, rfl, rfl⟩)
  · exact .inr (.inr rfl)

lemma exponent_inv (e : List Char) (x : Int) (h : exponent e = some x) : (e = [] ∧ x = 0) ∨ CExp e x := by
  cases e with
  | nil => exact .inl ⟨rfl, by simpa [exponent] using h.symm⟩
  | cons c t =>
    rw [exponent] at h
    split at h
    · rename_i hh
      obtain ⟨hc, hn, hd⟩ := hh
      rw [number_eq] at h
      rw [← digits_iff] at hd
      obtain rfl := Option.some.inj h
      right
      rcases sign_cases t with ⟨r, rfl, e⟩ | ⟨r, rfl, e⟩ | e <;> rw [e] at hn hd ⊢
      · rw [neg_one_mul]; exact .neg c r hc hn hd
      · rw [one_mul]; exact .pos c r hc hn hd
      · rw [one_mul]; exact .plain c t hc hn hd
    · simp at h

lemma takeWhile_digits (s : List Char) : Digits (s.takeWhile isDigit) := by
  intro c hc
  exact (isDigit_iff c).1 (List.all_eq_true.1 (List.all_takeWhile (l := s)) c hc)

lemma pyDecimal_inv (s : List Char) (q : Rat) (h : pyDecimal s = some q) (hn : ¬ (s ≠ [] ∧ s.all isDigit = true)) :
    CLit s (.dec q) := by
  have ha := takeWhile_digits s
  have hs : s.takeWhile isDigit ++ s.dropWhile isDigit = s := List.takeWhile_append_dropWhile
  simp only [pyDecimal, number_eq] at h
  split at h
  · rename_i r hr
    split at h
    · simp at h
    · rename_i hne
      have hb := takeWhile_digits r
      have hr' : r.takeWhile isDigit ++ r.dropWhile isDigit = r := List.takeWhile_append_dropWhile
      obtain ⟨x, hx, rfl⟩ := Option.map_eq_some_iff.1 h
      have hne' : s.takeWhile isDigit ≠ [] ∨ r.takeWhile isDigit ≠ [] := by
        rw [List.append_eq_nil_iff, not_and_or] at hne; exact hne
      rw [hr] at hs
      rcases exponent_inv _ _ hx with ⟨e0, rfl⟩ | he
      · rw [e0, List.append_nil] at hr'
        have := CLit.point _ _ hne' ha hb
        rw [hr', hs] at this
        rw [zero_sub, zpow_neg, zpow_natCast, ← div_eq_mul_inv, hr']
        exact this
      · have := CLit.pointExp _ _ _ _ hne' ha hb he
        rw [List.append_assoc, List.cons_append, hr', hs] at this
        rw [zpow_sub₀ (by norm_num), zpow_natCast]
        convert this using 2
        ring
  · rename_i hr
    split at h
    · simp at h
    · rename_i hne
      obtain ⟨x, hx, rfl⟩ := Option.map_eq_some_iff.1 h
      rcases exponent_inv _ _ hx with ⟨e0, rfl⟩ | he
      · rw [e0, List.append_nil] at hs
        refine absurd ⟨?_, ?_⟩ hn
        · rw [← hs]; exact hne
        · rw [← hs]; exact (digits_iff _).1 ha
      · have := CLit.exp _ _ _ hne ha he
        rwa [hs] at this

/-- **C148.** What Python reads as a number is the constant of C with that value, unless it has underscores, names
infinity or no number, or is a zero followed by digits. -/
theorem C148_number (value : List Char) (v : Val) (h : pyValue value = some v) :
    CNum (strip value) v ∨ '_' ∈ strip value ∨ v = .special ∨ Octal (strip value) := by
  by_cases hu : '_' ∈ strip value
  · exact .inr (.inl hu)
  by_cases ho : Octal (strip value)
  · exact .inr (.inr (.inr ho))
  by_cases hsp : v = .special
  · exact .inr (.inr (.inl hsp))
  left
  have main : ∀ (g : Int) (r : List Char), sign (strip value) = (g, r) → (¬ ∃ ds, ds ≠ [] ∧ Digits ds ∧ r = '0' :: ds) →
      ∃ w, CLit r w ∧ v = (match w with | .int n => .int (g * n) | .dec q => .dec (g * q) | .special => .special) := by
    intro g r hg hno
    simp only [pyValue, pyInt, pyFloat, clean_id _ hu, Option.bind_some, hg] at h
    by_cases hd : r ≠ [] ∧ r.all isDigit = true
    · rw [if_pos hd] at h
      have hD := (digits_iff r).2 hd.2
      refine ⟨_, .dec r hd.1 hD ?_, ?_⟩
      · by_contra hc
        rw [not_or, not_not] at hc
        cases r with
        | nil => exact hd.1 rfl
        | cons c t =>
          obtain ⟨h1, h2⟩ := hc
          obtain rfl : c = '0' := by simpa using h1
          refine hno ⟨t, ?_, fun k hk => hD k (List.mem_cons_of_mem _ hk), rfl⟩
          rintro rfl
          exact h2 rfl
      · rw [number_eq] at h
        exact (Option.some.inj h).symm
    · rw [if_neg hd] at h
      simp only at h
      split at h
      · exact absurd (Option.some.inj h).symm hsp
      · obtain ⟨q, hq, rfl⟩ := Option.map_eq_some_iff.1 h
        exact ⟨_, pyDecimal_inv r q hq hd, rfl⟩
  rcases sign_cases (strip value) with ⟨r, e, hg⟩ | ⟨r, e, hg⟩ | hg
  · obtain ⟨w, hw, rfl⟩ := main _ _ hg fun ⟨ds, h1, h2, h3⟩ => ho ⟨ds, h1, h2, .inr (.inr (by rw [e, h3]))⟩
    rw [e]
    have := CNum.neg r w hw
    cases w <;> simpa [Val.negate] using this
  · obtain ⟨w, hw, rfl⟩ := main _ _ hg fun ⟨ds, h1, h2, h3⟩ => ho ⟨ds, h1, h2, .inr (.inl (by rw [e, h3]))⟩
    rw [e]
    have := CNum.pos r w hw
    cases w <;> simpa using this
  · obtain ⟨w, hw, rfl⟩ := main _ _ hg fun ⟨ds, h1, h2, h3⟩ => ho ⟨ds, h1, h2, .inl h3⟩
    have := CNum.bare _ w hw
    cases w <;> simpa using this

end Forcepho.Limits
