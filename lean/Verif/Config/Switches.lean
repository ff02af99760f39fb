import Mathlib.Data.List.Basic
import Mathlib.Algebra.Order.Ring.Nat
import Mathlib.Tactic.Linarith

/-! # C176: switches of the command lines
(forcepho/config.py, demo/demo_psf/make_jwst_psf/make_psf.py, approx/psf/make_psf.py) -/

set_option autoImplicit false

namespace Forcepho.Config.Switches

/-- How an option is declared: `type=int` (config.py:29, 83, 85, 90, 101, 104, 114, 126), `type=bool` (make_psf.py:344-345 of the
demonstrations, 320-321 of approx), `action="store_true"` (make_psf.py:362-363, 338-339). -/
inductive Kind
  | int | bool | flag
  deriving DecidableEq

/-- What the command line has of it: nothing, the option alone, the option and a text. -/
inductive Given
  | absent | bare | text (s : List Char)

/-- The values of python. -/
inductive Val
  | int (n : ℤ) | bool (b : Bool)
  deriving DecidableEq

/-- The truth of a value, as `if` takes it. -/
def Val.truth : Val → Bool
  | .int n => n != 0
  | .bool b => b

/-- White space of ASCII. -/
def isSpace (c : Char) : Bool := [' ', '\t', '\n', '\r', '\x0b', '\x0c'].contains c

/-- `str.strip()`. -/
def strip (s : List Char) : List Char := ((s.dropWhile isSpace).reverse.dropWhile isSpace).reverse

/-- The digits after the first, which single underscores may separate. -/
def digitsAfter : Nat → List Char → Option Nat
  | acc, [] => some acc
  | acc, [d] => if d.isDigit then some (acc * 10 + (d.toNat - 48)) else none
  | acc, c :: d :: t =>
    if c.isDigit then digitsAfter (acc * 10 + (c.toNat - 48)) (d :: t)
    else if c = '_' && d.isDigit then digitsAfter (acc * 10 + (d.toNat - 48)) t
    else none

/-- Digits. -/
def digits : List Char → Option Nat
  | [] => none
  | d :: t => if d.isDigit then digitsAfter (d.toNat - 48) t else none

/-- `int(s)` for texts in ASCII. -/
def pyInt (s : List Char) : Option ℤ :=
  match strip s with
  | '-' :: t => (digits t).map fun (n : Nat) => -(n : ℤ)
  | '+' :: t => (digits t).map fun (n : Nat) => (n : ℤ)
  | t => (digits t).map fun (n : Nat) => (n : ℤ)

/-- The value that `parse_args` gives an option; `none`: the program ends with a message on its usage. -/
def parse (k : Kind) (default : Val) : Given → Option Val
  | .absent => some (match k with
    | .flag => .bool false
    | _ => default)
  | .bare => match k with
    | .flag => some (.bool true)
    | _ => none
  | .text s => match k with
    | .int => (pyInt s).map Val.int
    | .bool => some (.bool (s ≠ []))
    | .flag => none

lemma digit_not_space (c : Char) (h : c.isDigit = true) : isSpace c = false := by
  unfold isSpace
  by_contra hc
  rw [Bool.not_eq_false] at hc
  simp only [List.contains_cons, List.contains_nil, Bool.or_false, Bool.or_eq_true, beq_iff_eq] at hc
  rcases hc with rfl | rfl | rfl | rfl | rfl | rfl <;> revert h <;> decide

lemma strip_digits (s : List Char) (h : ∀ c ∈ s, c.isDigit = true) : strip s = s := by
  have hd : ∀ l : List Char, (∀ c ∈ l, c.isDigit = true) → l.dropWhile isSpace = l := by
    intro l hl
    cases l with
    | nil => rfl
    | cons c t => rw [List.dropWhile_cons_of_neg (by rw [digit_not_space c (hl c (by simp))]; simp)]
  unfold strip
  rw [hd s h, hd s.reverse (fun c hc => h c (List.mem_reverse.1 hc)), List.reverse_reverse]

lemma digitsAfter_eq (t : List Char) : ∀ acc, (∀ c ∈ t, c.isDigit = true) →
    digitsAfter acc t = some (t.foldl (fun n c => n * 10 + (c.toNat - 48)) acc) := by
  induction t with
  | nil => intro acc _; rfl
  | cons c t ih =>
    intro acc h
    have hc := h c (by simp)
    cases t with
    | nil => simp [digitsAfter, hc]
    | cons d t => rw [digitsAfter, if_pos hc, ih _ (fun x hx => h x (by simp [hx]))]; rfl

lemma foldl_zero (t : List Char) (h : ∀ c ∈ t, c.isDigit = true) : ∀ acc,
    t.foldl (fun n c => n * 10 + (c.toNat - 48)) acc = 0 ↔ acc = 0 ∧ ∀ c ∈ t, c = '0' := by
  have hz : ∀ c : Char, c.isDigit = true → (c.toNat - 48 = 0 ↔ c = '0') := by
    intro c hc
    rw [Char.isDigit, Bool.and_eq_true, decide_eq_true_eq, decide_eq_true_eq] at hc
    constructor
    · intro h0
      apply Char.ext
      apply UInt32.toNat_inj.1
      have h1 : 48 ≤ c.val.toNat := UInt32.le_iff_toNat_le.1 hc.1
      have h2 : c.val.toNat - 48 = 0 := h0
      show c.val.toNat = 48
      omega
    · rintro rfl; rfl
  induction t with
  | nil => intro acc; simp
  | cons c t ih =>
    intro acc
    rw [List.foldl_cons, ih (fun x hx => h x (by simp [hx]))]
    have := hz c (h c (by simp))
    constructor
    · rintro ⟨h1, h2⟩
      have hc0 : c = '0' := this.1 (by omega)
      refine ⟨by omega, ?_⟩
      intro x hx
      rcases List.mem_cons.1 hx with rfl | hx
      · exact hc0
      · exact h2 x hx
    · rintro ⟨h1, h2⟩
      have := this.2 (h2 c (by simp))
      exact ⟨by omega, fun x hx => h2 x (by simp [hx])⟩

lemma digit_sign (c : Char) (h : c.isDigit = true) : c ≠ '-' ∧ c ≠ '+' := by
  constructor <;> rintro rfl <;> revert h <;> decide

lemma pyInt_digits (s : List Char) (hs : s ≠ []) (h : ∀ c ∈ s, c.isDigit = true) :
    pyInt s = some ((s.foldl (fun n c => n * 10 + (c.toNat - 48)) 0 : Nat) : ℤ) := by
  unfold pyInt
  rw [strip_digits s h]
  cases s with
  | nil => exact absurd rfl hs
  | cons c t =>
    have hc := h c (by simp)
    obtain ⟨h1, h2⟩ := digit_sign c hc
    have : digits (c :: t) = some ((c :: t).foldl (fun n c => n * 10 + (c.toNat - 48)) 0) := by
      rw [digits, if_pos hc, digitsAfter_eq t _ (fun x hx => h x (by simp [hx]))]
      simp
    split
    · rename_i heq; injection heq with e1 _; exact absurd e1 h1
    · rename_i heq; injection heq with e1 _; exact absurd e1 h2
    · rw [this]; rfl

lemma digitsAfter_chars (n : Nat) : ∀ (t : List Char), t.length ≤ n → ∀ acc m, digitsAfter acc t = some m →
    ∀ c ∈ t, c.isDigit = true ∨ c = '_' := by
  induction n with
  | zero =>
    intro t ht acc m _ c hc
    rw [List.length_eq_zero_iff.1 (Nat.le_zero.1 ht)] at hc
    exact absurd hc (by simp)
  | succ n ih =>
    intro t ht acc m h c hc
    match t with
    | [] => exact absurd hc (by simp)
    | [d] =>
      rw [digitsAfter] at h
      split at h
      · rename_i hd
        rw [List.mem_singleton.1 hc]; exact Or.inl hd
      · cases h
    | x :: y :: t =>
      rw [digitsAfter] at h
      simp only [List.length_cons] at ht
      split at h
      · rename_i hd
        rcases List.mem_cons.1 hc with rfl | hc
        · exact Or.inl hd
        · exact ih (y :: t) (by simp only [List.length_cons]; omega) _ _ h c hc
      · split at h
        · rename_i hxy
          rw [Bool.and_eq_true, decide_eq_true_eq] at hxy
          rcases List.mem_cons.1 hc with rfl | hc
          · exact Or.inr hxy.1
          · rcases List.mem_cons.1 hc with rfl | hc
            · exact Or.inl hxy.2
            · exact ih t (by omega) _ _ h c hc
        · cases h

lemma digits_chars (t : List Char) (m : Nat) (h : digits t = some m) : ∀ c ∈ t, c.isDigit = true ∨ c = '_' := by
  intro c hc
  match t with
  | [] => exact absurd hc (by simp)
  | d :: t =>
    rw [digits] at h
    split at h
    · rename_i hd
      rcases List.mem_cons.1 hc with rfl | hc
      · exact Or.inl hd
      · exact digitsAfter_chars _ t le_rfl _ _ h c hc
    · cases h

lemma mem_strip (s : List Char) (c : Char) (h : c ∈ s) : c ∈ strip s ∨ isSpace c = true := by
  have hd : ∀ l : List Char, c ∈ l → c ∈ l.dropWhile isSpace ∨ isSpace c = true := by
    intro l hl
    rw [← List.takeWhile_append_dropWhile (p := isSpace) (l := l), List.mem_append] at hl
    rcases hl with hl | hl
    · exact Or.inr (List.all_eq_true.1 (List.all_takeWhile (p := isSpace) (l := l)) c hl)
    · exact Or.inl hl
  rcases hd s h with h | h
  · rcases hd _ (List.mem_reverse.2 h) with h | h
    · exact Or.inl (List.mem_reverse.2 h)
    · exact Or.inr h
  · exact Or.inr h

lemma pyInt_chars (s : List Char) (m : ℤ) (h : pyInt s = some m) :
    ∀ c ∈ s, c.isDigit = true ∨ isSpace c = true ∨ c ∈ ['-', '+', '_'] := by
  intro c hc
  rcases mem_strip s c hc with hc | hc
  · unfold pyInt at h
    split at h
    · rename_i t ht
      rw [ht] at hc
      rw [Option.map_eq_some_iff] at h
      obtain ⟨k, hk, _⟩ := h
      rcases List.mem_cons.1 hc with rfl | hc
      · right; right; simp
      · rcases digits_chars t k hk c hc with h | h
        · exact Or.inl h
        · right; right; simp [h]
    · rename_i t ht
      rw [ht] at hc
      rw [Option.map_eq_some_iff] at h
      obtain ⟨k, hk, _⟩ := h
      rcases List.mem_cons.1 hc with rfl | hc
      · right; right; simp
      · rcases digits_chars t k hk c hc with h | h
        · exact Or.inl h
        · right; right; simp [h]
    · rw [Option.map_eq_some_iff] at h
      obtain ⟨k, hk, _⟩ := h
      rcases digits_chars _ k hk c hc with h | h
      · exact Or.inl h
      · right; right; simp [h]
  · exact Or.inr (Or.inl hc)

/-- C176, integer switches. Not given, a switch has its default. Given a number in digits it has that value, and is off exactly if all digits are
zero. A text with any other character than digits, white space, signs and underscores, such as a word, is refused, as is no text. -/
theorem C176_int (default : Val) :
    parse .int default .absent = some default ∧ parse .int default .bare = none ∧
    (∀ s : List Char, s ≠ [] → (∀ c ∈ s, c.isDigit = true) → ∃ n : Nat, parse .int default (.text s) = some (.int n) ∧
      n = s.foldl (fun n c => n * 10 + (c.toNat - 48)) 0 ∧ ((Val.int n).truth = false ↔ ∀ c ∈ s, c = '0')) ∧
    ∀ (s : List Char) (c : Char), c ∈ s → c.isDigit = false → c ∉ [' ', '\t', '\n', '\r', '\x0b', '\x0c', '-', '+', '_'] →
      parse .int default (.text s) = none := by
  refine ⟨rfl, rfl, ?_, ?_⟩
  · intro s hs h
    refine ⟨_, ?_, rfl, ?_⟩
    · show (pyInt s).map Val.int = _
      rw [pyInt_digits s hs h]; rfl
    · simp only [Val.truth, bne_eq_false_iff_eq, Int.natCast_eq_zero]
      rw [foldl_zero s h 0]
      simp
  · intro s c hc hd hn
    show (pyInt s).map Val.int = none
    rw [Option.map_eq_none_iff]
    by_contra hne
    obtain ⟨m, hm⟩ := Option.ne_none_iff_exists'.1 hne
    rcases pyInt_chars s m hm c hc with h | h | h
    · rw [hd] at h; cases h
    · apply hn
      unfold isSpace at h
      rw [List.contains_iff_mem] at h
      simp only [List.mem_cons, List.not_mem_nil, or_false] at h ⊢
      tauto
    · apply hn
      simp only [List.mem_cons, List.not_mem_nil, or_false] at h ⊢
      tauto

/-- Negative numbers, signs, white space and underscores are read as python does; two signs or a point are refused. -/
theorem C176_int_texts :
    pyInt "-3".toList = some (-3) ∧ pyInt "+12".toList = some 12 ∧ pyInt " 0\n".toList = some 0 ∧ pyInt "1_000".toList = some 1000 ∧
    pyInt "1__0".toList = none ∧ pyInt "--1".toList = none ∧ pyInt "1.0".toList = none ∧ pyInt "".toList = none ∧ pyInt "_1".toList = none ∧
    pyInt "1_".toList = none ∧ pyInt "False".toList = none ∧ pyInt "1 0".toList = none := by
  decide +kernel

/-- C176, flags. A flag is on exactly if it is given; a text is refused. -/
theorem C176_flag (default : Val) (g : Given) (v : Val) (h : parse .flag default g = some v) :
    (∀ s, g ≠ .text s) ∧ (v.truth = true ↔ g = .bare) := by
  cases g <;> simp_all [parse]
  all_goals subst h
  all_goals simp [Val.truth]

/-- C176, refuted (`--fitsout`, `--overwrite`). Any text turns such a switch on, so `--overwrite 0` and `--overwrite False` mean the same as
`--overwrite 1`. It is off exactly if the text is empty, or if it is not given and off by default. -/
theorem C176_bool_refuted (default : Val) (g : Given) :
    (∀ s : List Char, s ≠ [] → parse .bool default (.text s) = some (.bool true)) ∧
    (∀ v, parse .bool default g = some v → (v.truth = false ↔ g = .text [] ∨ g = .absent ∧ default.truth = false)) ∧
    (parse .bool default g = none ↔ g = .bare) := by
  refine ⟨?_, ?_, ?_⟩
  · intro s hs
    simp [parse, hs]
  · intro v hv
    cases g with
    | absent => simp [parse] at hv; subst hv; simp
    | bare => simp [parse] at hv
    | text s => simp [parse] at hv; subst hv; simp [Val.truth]
  · cases g <;> simp [parse]

/-! ## what `--overwrite` is for -/

/-- The exception of `package_output` (make_psf.py:221-225 of the demonstrations, 215-219 of approx): if the group exists and is not to be
overwritten, the name of the group is used without being bound. -/
inductive PackErr
  | unboundLocal
  deriving DecidableEq

/-- The group of a band in `package_output` (make_psf.py:212-224 of the demonstrations): the store is a list of bands and their data. -/
def package {D : Type} (store : List (String × D)) (band : String) (d : D) (overwrite : Bool) : Except PackErr (List (String × D)) :=
  if band ∈ store.map (·.1) then
    if overwrite then .ok (store.filter (fun e => e.1 ≠ band) ++ [(band, d)])
    else .error .unboundLocal
  else .ok (store ++ [(band, d)])

/-- C176, stores. Other bands are kept. The band gets the new data if it is new or if the switch is on, and is not touched otherwise; the program
then fails. -/
theorem C176_store {D : Type} (store : List (String × D)) (band : String) (d : D) (overwrite : Bool) :
    (package store band d overwrite = .error .unboundLocal ↔ overwrite = false ∧ ∃ x, (band, x) ∈ store) ∧
    ∀ store', package store band d overwrite = .ok store' →
      (∀ x, (band, x) ∈ store' ↔ x = d) ∧ ∀ b x, b ≠ band → ((b, x) ∈ store' ↔ (b, x) ∈ store) := by
  have hmem : band ∈ store.map (·.1) ↔ ∃ x, (band, x) ∈ store := by simp
  unfold package
  by_cases h : band ∈ store.map (·.1)
  · rw [if_pos h]
    cases overwrite
    · simp only [Bool.false_eq_true, if_false, true_and]
      exact ⟨⟨fun _ => hmem.1 h, fun _ => trivial⟩, by intro s hs; cases hs⟩
    · simp only [if_true]
      refine ⟨by simp, ?_⟩
      intro s hs
      injection hs with hs
      subst hs
      refine ⟨by intro x; simp, ?_⟩
      intro b x hb
      simp [hb]
  · rw [if_neg h]
    refine ⟨?_, ?_⟩
    · constructor
      · intro h'; cases h'
      · rintro ⟨_, h'⟩; exact absurd (hmem.2 h') h
    · intro s hs
      injection hs with hs
      subst hs
      constructor
      · intro x
        simp only [List.mem_append, List.mem_singleton, Prod.mk.injEq, true_and]
        constructor
        · rintro (h' | h')
          · exact absurd (hmem.2 ⟨x, h'⟩) h
          · exact h'
        · exact Or.inr
      · intro b x hb
        simp [hb]

/-- C176, refuted (stores). A user who asks with `--overwrite 0` that a stored PSF be kept loses it. -/
theorem C176_store_refuted {D : Type} (store : List (String × D)) (band : String) (old d : D) (hne : old ≠ d) (h : (band, old) ∈ store) :
    ∃ v store', parse .bool (.int 1) (.text "0".toList) = some v ∧ package store band d v.truth = .ok store' ∧ (band, old) ∉ store' ∧
      (band, d) ∈ store' := by
  refine ⟨.bool true, store.filter (fun e => e.1 ≠ band) ++ [(band, d)], by decide, ?_, ?_, by simp⟩
  · have : band ∈ store.map (·.1) := List.mem_map.2 ⟨_, h, rfl⟩
    unfold package
    rw [if_pos this]
    rfl
  · simp [hne]

example : package [("F090W", 1), ("F200W", 2)] "F090W" 3 true = .ok [("F200W", 2), ("F090W", 3)] := by decide +kernel

/-! ## configuration given as a dictionary -/

/-- What `yaml_to_namespace` is given: a file name, a dictionary, something else. -/
inductive Source
  | name (s : String) | dict (d : List (String × String)) | other

/-- The exceptions of `yaml_to_namespace` (config.py:195-217). -/
inductive YamlErr
  | notFound | noRead | unboundLocal
  deriving DecidableEq

/-- `yaml_to_namespace` (config.py:195-217). `yaml.load` takes a text or an object with a `read` method, which dictionaries do not have. -/
def yamlToNamespace (disk : String → Option (List (String × String))) : Source → Except YamlErr (List (String × String))
  | .name s => match disk s with
    | some d => .ok d
    | none => .error .notFound
  | .dict _ => .error .noRead
  | .other => .error .unboundLocal

/-- C176, refuted (dictionaries). The documentation allows the name of a file or a dictionary. The entries of an existing file are returned; every
dictionary fails. -/
theorem C176_dict_refuted (disk : String → Option (List (String × String))) (src : Source) (d : List (String × String)) :
    yamlToNamespace disk src = .ok d ↔ ∃ s, src = .name s ∧ disk s = some d := by
  cases src with
  | name s =>
    simp only [yamlToNamespace, Source.name.injEq, exists_eq_left']
    cases disk s <;> simp
  | dict d' => simp [yamlToNamespace]
  | other => simp [yamlToNamespace]

end Forcepho.Config.Switches
