import Verif.Commands.Model

/-! # C177: commands of the readmes and shell scripts: the proofs -/

set_option autoImplicit false

namespace Forcepho.Commands

/-! ## Words -/

theorem isDigit_iff (c : Char) : isDigit c = true ↔ '0' ≤ c ∧ c ≤ '9' := by simp [isDigit]

theorem dot_not_digit : isDigit '.' = false := by decide

/-- A text of digits is an integer, and nothing else is. -/
theorem C177_int (w : String) : valid .int w = true ↔ w.toList ≠ [] ∧ ∀ c ∈ w.toList, '0' ≤ c ∧ c ≤ '9' := by
  simp [valid, isInt, isDigit]

theorem dropWhile_digits {a b : List Char} {c : Char} (ha : ∀ x ∈ a, isDigit x = true) (hc : isDigit c = false) :
    (a ++ c :: b).dropWhile isDigit = c :: b := by
  induction a with
  | nil => simp [List.dropWhile, hc]
  | cons x a ih =>
    simp only [List.cons_append, List.dropWhile, ha x (by simp)]
    exact ih fun y hy => ha y (by simp [hy])

theorem takeWhile_digits {a b : List Char} {c : Char} (ha : ∀ x ∈ a, isDigit x = true) (hc : isDigit c = false) :
    (a ++ c :: b).takeWhile isDigit = a := by
  induction a with
  | nil => simp [List.takeWhile, hc]
  | cons x a ih =>
    simp only [List.cons_append, List.takeWhile, ha x (by simp)]
    rw [ih fun y hy => ha y (by simp [hy])]

theorem all_of_takeWhile (s : List Char) : ∀ x ∈ s.takeWhile isDigit, isDigit x = true := by
  have h := List.all_takeWhile (p := isDigit) (l := s)
  exact List.all_eq_true.1 h

theorem dropWhile_nil (s : List Char) : s.dropWhile isDigit = [] ↔ ∀ x ∈ s, isDigit x = true := by
  induction s with
  | nil => simp
  | cons c s ih => by_cases hc : isDigit c = true <;> simp [List.dropWhile, hc, ih]

/-- Digits, or digits around a point with one digit at least, are a number, and nothing else is. -/
theorem C177_float (w : String) : valid .float w = true ↔
    (w.toList ≠ [] ∧ ∀ c ∈ w.toList, '0' ≤ c ∧ c ≤ '9') ∨
    ∃ a b : List Char, w.toList = a ++ '.' :: b ∧ (∀ c ∈ a, '0' ≤ c ∧ c ≤ '9') ∧ (∀ c ∈ b, '0' ≤ c ∧ c ≤ '9') ∧ (a ≠ [] ∨ b ≠ []) := by
  simp only [← isDigit_iff, valid]
  generalize w.toList = s
  constructor
  · intro h
    have e := List.takeWhile_append_dropWhile (p := isDigit) (l := s)
    unfold isFloat at h
    split at h
    · next hd =>
      left
      rw [hd, List.append_nil] at e
      refine ⟨by simpa using h, ?_⟩
      rw [← e]
      exact all_of_takeWhile s
    · next c b hd =>
      right
      simp only [Bool.and_eq_true, beq_iff_eq, List.all_eq_true, Bool.or_eq_true, Bool.not_eq_true', List.isEmpty_eq_false_iff] at h
      obtain ⟨⟨rfl, hb⟩, hne⟩ := h
      exact ⟨s.takeWhile isDigit, b, by rw [← hd, e], all_of_takeWhile s, hb, hne⟩
  · rintro (⟨hne, hall⟩ | ⟨a, b, rfl, ha, hb, hne⟩)
    · unfold isFloat
      rw [(dropWhile_nil _).2 hall]
      simpa using hne
    · unfold isFloat
      rw [dropWhile_digits ha dot_not_digit, takeWhile_digits ha dot_not_digit]
      simp only [Bool.and_eq_true, beq_iff_eq, List.all_eq_true, Bool.or_eq_true, Bool.not_eq_true', List.isEmpty_eq_false_iff]
      exact ⟨⟨trivial, hb⟩, hne⟩

/-- Any word does for a text or a switch. -/
theorem C177_text (w : String) : valid .text w = true ∧ valid .bool w = true := ⟨rfl, rfl⟩

/-- A word is an option exactly if it begins with a dash, is longer than that, and is not a negative number. -/
theorem C177_option (s : List Char) : isOption s = true ↔
    ∃ r : List Char, s = '-' :: r ∧ r ≠ [] ∧ ¬(∀ c ∈ r, '0' ≤ c ∧ c ≤ '9') ∧
      ¬∃ a b : List Char, r = a ++ '.' :: b ∧ (∀ c ∈ a, '0' ≤ c ∧ c ≤ '9') ∧ b ≠ [] ∧ ∀ c ∈ b, '0' ≤ c ∧ c ≤ '9' := by
  simp only [← isDigit_iff]
  constructor
  · intro h
    unfold isOption at h
    split at h
    · next c r =>
      refine ⟨c :: r, rfl, by simp, ?_, ?_⟩
      · intro hall
        rw [(dropWhile_nil _).2 hall] at h
        simp at h
      · rintro ⟨a, b, e, ha, hne, hb⟩
        rw [e, dropWhile_digits ha dot_not_digit] at h
        simp only [beq_self_eq_true, Bool.true_and, Bool.not_eq_true', isInt, Bool.and_eq_false_iff, Bool.not_eq_false',
          List.isEmpty_iff] at h
        rcases h with h | h
        · exact hne h
        · rw [List.all_eq_true.2 hb] at h
          exact Bool.noConfusion h
    · exact Bool.noConfusion h
  · rintro ⟨r, rfl, hne, hn, hf⟩
    obtain ⟨c, t, rfl⟩ := List.exists_cons_of_ne_nil hne
    have e := List.takeWhile_append_dropWhile (p := isDigit) (l := c :: t)
    unfold isOption
    simp only
    split
    · next hd => exact absurd ((dropWhile_nil _).1 hd) hn
    · next d b hd =>
      simp only [Bool.not_eq_true', Bool.and_eq_false_iff, beq_eq_false_iff_ne]
      by_cases hdot : d = '.'
      · right
        subst hdot
        by_contra hi
        simp only [Bool.not_eq_false, isInt, Bool.and_eq_true, Bool.not_eq_true', List.isEmpty_eq_false_iff, List.all_eq_true] at hi
        exact hf ⟨_, b, by rw [← hd, e], all_of_takeWhile _, hi.1, hi.2⟩
      · exact Or.inl hdot

example : isOption "--band".toList = true ∧ isOption "-0.5".toList = false ∧ isOption "-".toList = false ∧ isOption "f090w".toList = false := by
  decide +kernel

/-! ## Names of options -/

/-- A word stands for an option of that name, else for the only option it begins; it is refused if there is none or more than one. -/
theorem C177_resolve (opts : List Opt) (hd : (opts.map (·.name)).Nodup) (w : String) (o : Opt) :
    resolve opts w = .ok o ↔
      o ∈ opts ∧ (o.name = w ∨
        (∀ x ∈ opts, x.name ≠ w) ∧ w.toList <+: o.name.toList ∧ ∀ x ∈ opts, w.toList <+: x.name.toList → x = o) := by
  have uniq : ∀ x ∈ opts, ∀ y ∈ opts, x.name = y.name → x = y := fun x hx y hy h => List.inj_on_of_nodup_map hd hx hy h
  unfold resolve
  split
  · next y hy =>
    have hym := List.mem_of_find?_eq_some hy
    have hyw : y.name = w := by simpa using List.find?_some hy
    constructor
    · intro h
      obtain rfl : y = o := by injection h
      exact ⟨hym, Or.inl hyw⟩
    · rintro ⟨ho, h | ⟨h, _⟩⟩
      · rw [uniq y hym o ho (hyw.trans h.symm)]
      · exact absurd hyw (h y hym)
  · next hn =>
    have hnone : ∀ x ∈ opts, x.name ≠ w := by
      intro x hx
      have := List.find?_eq_none.1 hn x hx
      simpa using this
    have hmem : ∀ x, x ∈ opts.filter (fun o => w.toList.isPrefixOf o.name.toList) ↔ x ∈ opts ∧ w.toList <+: x.name.toList := by
      intro x
      rw [List.mem_filter, List.isPrefixOf_iff_prefix]
    have hnd : (opts.filter (fun o => w.toList.isPrefixOf o.name.toList)).Nodup := (List.Nodup.of_map _ hd).filter _
    generalize opts.filter (fun o => w.toList.isPrefixOf o.name.toList) = f at hmem hnd
    constructor
    · intro h
      split at h
      · exact absurd h (by simp)
      · next y =>
        obtain rfl : y = o := by injection h
        obtain ⟨h1, h2⟩ := (hmem y).1 (by simp)
        refine ⟨h1, Or.inr ⟨hnone, h2, fun x hx hp => ?_⟩⟩
        simpa using (hmem x).2 ⟨hx, hp⟩
      · exact absurd h (by simp)
    · rintro ⟨ho, h | ⟨_, hp, hu⟩⟩
      · exact absurd h (hnone o ho)
      · have hof : o ∈ f := (hmem o).2 ⟨ho, hp⟩
        have hall : ∀ x ∈ f, x = o := fun x hx => hu x ((hmem x).1 hx).1 ((hmem x).1 hx).2
        match f, hof, hall, hnd with
        | [x], _, hall, _ => rw [hall x (by simp)]
        | x :: y :: r, _, hall, hnd =>
          exact absurd ((hall x (by simp)).trans (hall y (by simp)).symm) (by simp at hnd; tauto)

/-- An abbreviation of two options at least, and the name of none, is ambiguous; one of none is not recognized. -/
theorem C177_resolve_refused (opts : List Opt) (w : String) (hw : ∀ x ∈ opts, x.name ≠ w) :
    ((∀ x ∈ opts, ¬ w.toList <+: x.name.toList) → resolve opts w = .error .unrecognized) ∧
    (∀ x ∈ opts, ∀ y ∈ opts, x ≠ y → w.toList <+: x.name.toList → w.toList <+: y.name.toList → resolve opts w = .error .ambiguous) := by
  have hn : opts.find? (fun o => o.name == w) = none := by
    rw [List.find?_eq_none]
    intro x hx
    simpa using hw x hx
  have hmem : ∀ x, x ∈ opts.filter (fun o => w.toList.isPrefixOf o.name.toList) ↔ x ∈ opts ∧ w.toList <+: x.name.toList := by
    intro x
    rw [List.mem_filter, List.isPrefixOf_iff_prefix]
  unfold resolve
  rw [hn]
  simp only
  generalize opts.filter (fun o => w.toList.isPrefixOf o.name.toList) = f at hmem
  constructor
  · intro h
    match f, hmem with
    | [], _ => rfl
    | x :: r, hmem =>
      obtain ⟨h1, h2⟩ := (hmem x).1 (by simp)
      exact absurd h2 (h x h1)
  · intro x hx y hy hne hpx hpy
    have h1 := (hmem x).2 ⟨hx, hpx⟩
    have h2 := (hmem y).2 ⟨hy, hpy⟩
    match f, h1, h2 with
    | [], h1, _ => simp at h1
    | [z], h1, h2 =>
      simp only [List.mem_singleton] at h1 h2
      exact absurd (h1.trans h2.symm) hne
    | _ :: _ :: _, _, _ => rfl

/-- `--psf_image` of approx/psf/readme.md abbreviates `--psf_image_name`; `--band` would be ambiguous to the fit of the PSF demonstration. -/
example : resolve approxMakePsf "--psf_image" = .ok ⟨"--psf_image_name", .one, .text⟩ ∧ resolve psfOneFit "--band" = .error .ambiguous := by
  decide +kernel

/-! ## Whole commands -/

theorem group_spec (ws : List String) :
    (group ws).1 ++ (group ws).2.flatMap (fun g => g.1 :: g.2) = ws ∧ (∀ v ∈ (group ws).1, isOption v.toList = false) ∧
    ∀ g ∈ (group ws).2, isOption g.1.toList = true ∧ ∀ v ∈ g.2, isOption v.toList = false := by
  induction ws with
  | nil => simp [group]
  | cons w r ih =>
    obtain ⟨h1, h2, h3⟩ := ih
    unfold group
    by_cases hw : isOption w.toList = true
    · simp only [hw, if_true]
      refine ⟨by simp [h1], by simp, ?_⟩
      intro g hg
      rcases List.mem_cons.1 hg with rfl | hg
      · exact ⟨hw, h2⟩
      · exact h3 g hg
    · simp only [hw, Bool.false_eq_true, if_false]
      refine ⟨by simp [h1], ?_, h3⟩
      intro v hv
      rcases List.mem_cons.1 hv with rfl | hv
      · simpa using hw
      · exact h2 v hv

theorem group_unique (vs : List String) (gs : List (String × List String)) (h1 : ∀ v ∈ vs, isOption v.toList = false)
    (h2 : ∀ g ∈ gs, isOption g.1.toList = true ∧ ∀ v ∈ g.2, isOption v.toList = false) :
    group (vs ++ gs.flatMap (fun g => g.1 :: g.2)) = (vs, gs) := by
  induction gs generalizing vs with
  | nil =>
    induction vs with
    | nil => rfl
    | cons v vs ih =>
      simp only [List.flatMap_nil, List.append_nil] at ih ⊢
      unfold group
      rw [ih fun x hx => h1 x (by simp [hx])]
      simp [h1 v (by simp)]
  | cons g gs ihg =>
    induction vs with
    | nil =>
      simp only [List.flatMap_cons, List.nil_append, List.cons_append]
      unfold group
      rw [ihg g.2 (h2 g (by simp)).2 fun x hx => h2 x (by simp [hx])]
      simp [(h2 g (by simp)).1]
    | cons v vs ih =>
      rw [List.cons_append]
      unfold group
      rw [ih fun x hx => h1 x (by simp [hx])]
      simp [h1 v (by simp)]

/-- What an option with the words after it comes to. -/
theorem take_ok (opts : List Opt) (g a : String × List String) :
    take opts g = .ok a ↔
      ∃ o, resolve opts g.1 = .ok o ∧ a = (o.name, g.2) ∧ (∀ v ∈ g.2, valid o.ty v = true ∨ o.nargs = .flag) ∧
        (o.nargs = .one → g.2.length = 1) ∧ (o.nargs = .flag → g.2 = []) := by
  obtain ⟨w, vs⟩ := g
  unfold take
  cases hr : resolve opts w with
  | error e => simp
  | ok o =>
    obtain ⟨n, k, t⟩ := o
    cases k with
    | one =>
      match vs with
      | [] => simp
      | [v] => by_cases hv : valid t v = true <;> simp [hv, @eq_comm _ a]
      | _ :: _ :: _ => simp
    | flag =>
      match vs with
      | [] => simp [@eq_comm _ a]
      | _ :: _ => simp
    | many =>
      by_cases hv : ∀ v ∈ vs, valid t v = true
      · simp only [List.all_eq_true, if_pos hv]
        simp only [Except.ok.injEq, @eq_comm _ a, reduceCtorEq, or_false, false_implies, and_true, exists_eq_left']
        exact ⟨fun h => ⟨h, hv⟩, fun h => h.1⟩
      · simp [hv]

theorem mapM_ok {α β : Type} (f : α → Except Refused β) (l : List α) (r : List β) :
    l.mapM f = .ok r ↔ List.Forall₂ (fun a b => f a = .ok b) l r := by
  induction l generalizing r with
  | nil =>
    simp only [List.mapM_nil, List.forall₂_nil_left_iff]
    constructor
    · intro h; injection h with h; exact h.symm
    · rintro rfl; rfl
  | cons a l ih =>
    rw [List.mapM_cons]
    cases hf : f a with
    | error e =>
      constructor
      · intro h; cases h
      · intro h; cases h with | cons h _ => rw [hf] at h; cases h
    | ok b =>
      cases hl : l.mapM f with
      | error e =>
        constructor
        · intro h; cases h
        · intro h
          cases h with
          | cons _ h => rw [(ih _).2 h] at hl; cases hl
      | ok bs =>
        constructor
        · intro h
          obtain rfl : b :: bs = r := by injection h
          exact .cons hf ((ih _).1 hl)
        · intro h
          cases h with
          | cons h1 h2 =>
            rw [hf] at h1
            rw [(ih _).2 h2] at hl
            injection h1 with h1
            injection hl with hl
            subst h1; subst hl
            rfl

/-- A command is understood exactly if its words are options each followed by its values and nothing is left over: every option is one of the
program's, by its name or by an abbreviation of no other; an option of one value has one, a flag none; every value is of the type declared. The program
then has the options under their full names, in order, with these values. -/
theorem C177_parse (opts : List Opt) (hd : (opts.map (·.name)).Nodup) (ws : List String) (r : List (String × List String)) :
    parse opts ws = .ok r ↔
      ∃ gs : List (String × List String), ws = gs.flatMap (fun g => g.1 :: g.2) ∧
        (∀ g ∈ gs, isOption g.1.toList = true ∧ ∀ v ∈ g.2, isOption v.toList = false) ∧
        List.Forall₂ (fun g a => ∃ o ∈ opts,
          (o.name = g.1 ∨ (∀ x ∈ opts, x.name ≠ g.1) ∧ g.1.toList <+: o.name.toList ∧ ∀ x ∈ opts, g.1.toList <+: x.name.toList → x = o) ∧
          a = (o.name, g.2) ∧ (∀ v ∈ g.2, valid o.ty v = true ∨ o.nargs = .flag) ∧ (o.nargs = .one → g.2.length = 1) ∧
          (o.nargs = .flag → g.2 = [])) gs r := by
  have key : ∀ g a, take opts g = .ok a ↔ ∃ o ∈ opts,
      (o.name = g.1 ∨ (∀ x ∈ opts, x.name ≠ g.1) ∧ g.1.toList <+: o.name.toList ∧ ∀ x ∈ opts, g.1.toList <+: x.name.toList → x = o) ∧
      a = (o.name, g.2) ∧ (∀ v ∈ g.2, valid o.ty v = true ∨ o.nargs = .flag) ∧ (o.nargs = .one → g.2.length = 1) ∧
      (o.nargs = .flag → g.2 = []) := by
    intro g a
    rw [take_ok]
    constructor
    · rintro ⟨o, h, h2⟩
      obtain ⟨h3, h4⟩ := (C177_resolve opts hd g.1 o).1 h
      exact ⟨o, h3, h4, h2⟩
    · rintro ⟨o, h3, h4, h2⟩
      exact ⟨o, (C177_resolve opts hd g.1 o).2 ⟨h3, h4⟩, h2⟩
  unfold parse
  constructor
  · intro h
    obtain ⟨h1, _, h3⟩ := group_spec ws
    split at h
    · next he =>
      rw [List.isEmpty_iff.1 he, List.nil_append] at h1
      exact ⟨(group ws).2, h1.symm, h3, ((mapM_ok _ _ _).1 h).imp fun g a => (key g a).1⟩
    · cases h
  · rintro ⟨gs, rfl, h2, h3⟩
    have e := group_unique [] gs (by simp) h2
    rw [List.nil_append] at e
    rw [e]
    simp only [List.isEmpty_nil, if_true]
    exact (mapM_ok _ _ _).2 (h3.imp fun g a => (key g a).2)

/-- Why a command is refused: a word before the first option, or a value too many, is not recognized; a value too few was expected; a value of the wrong
kind is invalid. The first option refused decides. -/
theorem C177_refusals (opts : List Opt) (ws : List String) :
    (∀ v r, ws = v :: r → isOption v.toList = false → parse opts ws = .error .unrecognized) ∧
    (∀ (w : String) (vs : List String) (o : Opt), ws = w :: vs → isOption w.toList = true → (∀ v ∈ vs, isOption v.toList = false) →
      resolve opts w = .ok o →
      (o.nargs = .one → vs = [] → parse opts ws = .error .expected) ∧
      (o.nargs = .one → 2 ≤ vs.length → parse opts ws = .error .unrecognized) ∧
      (o.nargs = .flag → vs ≠ [] → parse opts ws = .error .unrecognized) ∧
      (o.nargs = .one → (∃ v, vs = [v] ∧ valid o.ty v = false) → parse opts ws = .error .invalid) ∧
      (o.nargs = .many → (∃ v ∈ vs, valid o.ty v = false) → parse opts ws = .error .invalid)) ∧
    (∀ (w : String) (vs : List String) (e : Refused), ws = w :: vs → isOption w.toList = true → resolve opts w = .error e →
      parse opts ws = .error e) := by
  have first : ∀ (w : String) (vs r : List String) (e : Refused), isOption w.toList = true →
      take opts (w, (group (vs ++ r)).1) = .error e → parse opts (w :: (vs ++ r)) = .error e := by
    intro w vs r e hw h
    unfold parse
    have : group (w :: (vs ++ r)) = ([], (w, (group (vs ++ r)).1) :: (group (vs ++ r)).2) := by
      conv_lhs => unfold group
      simp [hw]
    rw [this]
    simp only [List.isEmpty_nil, if_true, List.mapM_cons, h]
    rfl
  refine ⟨?_, ?_, ?_⟩
  · rintro v r rfl hv
    unfold parse group
    simp [hv]
  · rintro w vs o rfl hw hvs hr
    have hg : (group (vs ++ [])).1 = vs := by
      have := group_unique vs [] hvs (by simp)
      simp only [List.flatMap_nil] at this
      rw [this]
    have key : ∀ e, take opts (w, vs) = .error e → parse opts (w :: vs) = .error e := by
      intro e h
      have := first w vs [] e hw (by rw [hg]; exact h)
      rwa [List.append_nil] at this
    obtain ⟨n, k, t⟩ := o
    refine ⟨?_, ?_, ?_, ?_, ?_⟩
    · rintro h rfl
      simp only at h
      subst h
      exact key _ (by simp [take, hr])
    · intro h hl
      simp only at h
      subst h
      match vs, hl, key with
      | _ :: _ :: _, _, key => exact key _ (by simp [take, hr])
    · intro h hn
      simp only at h
      subst h
      match vs, hn, key with
      | _ :: _, _, key => exact key _ (by simp [take, hr])
    · rintro h ⟨v, rfl, hv⟩
      simp only at h hv
      subst h
      exact key _ (by simp [take, hr, hv])
    · rintro h ⟨v, hvm, hv⟩
      simp only at h hv
      subst h
      have : ¬ ∀ x ∈ vs, valid t x = true := fun hall => by rw [hall v hvm] at hv; cases hv
      exact key _ (by simp only [take, hr, List.all_eq_true, if_neg this])
  · rintro w vs e rfl hw hr
    have := first w vs [] e hw (by simp [take, hr])
    rwa [List.append_nil] at this

/-- No program declares an option twice, which argparse refuses and on which the above rests. -/
theorem C177_declared : ∀ p ∈ programs, ∀ o, p.2 = .options o → (o.map (·.name)).Nodup := by
  have h : ∀ p ∈ programs, (match p.2 with | .options o => decide (o.map (·.name)).Nodup | .argv _ => true) = true := by decide +kernel
  intro p hp o ho
  have := h p hp
  rw [ho] at this
  simpa using this

/-- A file in YAML is one whose name ends so. -/
theorem C177_yml (w : String) : isYml w = true ↔ ['.', 'y', 'm', 'l'] <:+ w.toList := by
  unfold isYml
  rw [List.isPrefixOf_iff_prefix, ← List.reverse_suffix]
  rw [List.reverse_reverse]
  have : "lmy.".toList.reverse = ['.', 'y', 'm', 'l'] := by decide +kernel
  rw [this]

/-- For any command: it fails for want of the program exactly if there is none, for want of a file only if it names one that is not there and its words
are understood, and it is refused only for its words. -/
theorem C177_start (c : Command) :
    (start c = .noProgram ↔ programs.lookup (c.dir ++ "/" ++ c.program) = none) ∧
    (∀ f, start c = .noFile f → f ∈ c.words ∧ ['.', 'y', 'm', 'l'] <:+ f.toList ∧ (c.dir, f) ∉ ymlFiles ∧
      ∃ o r, programs.lookup (c.dir ++ "/" ++ c.program) = some (.options o) ∧ parse o c.words = .ok r) ∧
    (∀ e, start c = .refused e ↔ (∃ o, programs.lookup (c.dir ++ "/" ++ c.program) = some (.options o) ∧ parse o c.words = .error e) ∨
      ∃ n, programs.lookup (c.dir ++ "/" ++ c.program) = some (.argv n) ∧ c.words.length < n ∧ e = .expected) := by
  unfold start
  cases programs.lookup (c.dir ++ "/" ++ c.program) with
  | none => simp
  | some r =>
    cases r with
    | argv n =>
      by_cases hn : n ≤ c.words.length
      · simp only [if_pos hn]
        refine ⟨by simp, by simp, fun e => ?_⟩
        simp only [reduceCtorEq, Option.some.injEq, false_and, exists_false, false_or, Reader.argv.injEq, exists_eq_left', false_iff]
        omega
      · simp only [if_neg hn]
        refine ⟨by simp, by simp, fun e => ?_⟩
        have : c.words.length < n := by omega
        simp [this, eq_comm]
    | options o =>
      simp only [Option.some.injEq, Reader.options.injEq, exists_eq_left', reduceCtorEq, false_and, exists_false, or_false]
      cases hp : parse o c.words with
      | error e => simp
      | ok a =>
        cases hf : c.words.find? (fun w => isYml w && !ymlFiles.contains (c.dir, w)) with
        | none => simp
        | some f =>
          refine ⟨by simp, ?_, by simp⟩
          rintro g hg
          obtain rfl : f = g := by injection hg
          have h1 := List.find?_some hf
          simp only [Bool.and_eq_true, Bool.not_eq_true'] at h1
          refine ⟨List.mem_of_find?_eq_some hf, (C177_yml f).1 h1.1, ?_, o, a, rfl, hp⟩
          have h2 := h1.2
          intro hm
          rw [List.contains_iff_mem.2 hm] at h2
          cases h2

/-- Every command of the readmes and scripts but three starts its program, which understands all its words. -/
theorem C177_commands_partial : ∀ c ∈ commands,
    (c.doc, c.line) ∉ [("demo/demo_psf/readme.md", 20), ("demo/demo_psf/make_jwst_psf/run_psf_approximation.sh", 47),
      ("tests/galsim_tests/test_sersic/test_sersic_cannon.sh", 30)] →
    (∃ o r, programs.lookup (c.dir ++ "/" ++ c.program) = some (.options o) ∧ parse o c.words = .ok r ∧ start c = .run r ∧
      ∀ w ∈ c.words, isYml w = true → (c.dir, w) ∈ ymlFiles) ∨
    (∃ n, programs.lookup (c.dir ++ "/" ++ c.program) = some (.argv n) ∧ c.words.length = n ∧ start c = .run []) := by
  have h : ∀ c ∈ commands,
      (c.doc, c.line) ∉ [("demo/demo_psf/readme.md", 20), ("demo/demo_psf/make_jwst_psf/run_psf_approximation.sh", 47),
        ("tests/galsim_tests/test_sersic/test_sersic_cannon.sh", 30)] →
      (match programs.lookup (c.dir ++ "/" ++ c.program) with
        | none => false
        | some (.argv n) => decide (c.words.length = n) && decide (start c = .run [])
        | some (.options o) =>
          match parse o c.words with
          | .error _ => false
          | .ok r => decide (start c = .run r) && c.words.all (fun w => !isYml w || ymlFiles.contains (c.dir, w))) = true := by
    decide +kernel
  intro c hc hx
  have := h c hc hx
  split at this
  · cases this
  · next n hl =>
    simp only [Bool.and_eq_true, decide_eq_true_eq] at this
    exact Or.inr ⟨n, hl, this.1, this.2⟩
  · next o hl =>
    split at this
    · cases this
    · next r hp =>
      simp only [Bool.and_eq_true, decide_eq_true_eq, List.all_eq_true, Bool.or_eq_true, Bool.not_eq_true', List.contains_iff_mem] at this
      refine Or.inl ⟨o, r, hl, hp, this.1, fun w hw hy => ?_⟩
      rcases this.2 w hw with h0 | h0
      · rw [hy] at h0; cases h0
      · exact h0

/-- The command of the PSF demonstration is refused, its `--psfimage` being no option of the program; the last program of the approximation script is
not there; the script of the Sersic test names a grid which is not there. -/
theorem C177_commands_refuted :
    (∃ c ∈ commands, c.doc = "demo/demo_psf/readme.md" ∧ "--psfimage" ∈ c.words ∧ start c = .refused .unrecognized) ∧
    (∃ c ∈ commands, c.doc = "demo/demo_psf/make_jwst_psf/run_psf_approximation.sh" ∧ c.program = "split_bands.py" ∧ start c = .noProgram) ∧
    (∃ c ∈ commands, c.doc = "tests/galsim_tests/test_sersic/test_sersic_cannon.sh" ∧ start c = .noFile "./test_grid.yml") := by
  refine ⟨?_, ?_, ?_⟩ <;> decide +kernel

/-! ## The end of make_psf.py -/

/-- The mixture is stored whenever a name is given (or left to its default), and then the FITS file is written exactly if it is asked for and the pixel
scale is given; asked for without, the program fails, although the option is declared as informational only. -/
theorem C177_save (a : List (String × List String)) :
    (saveOutput a = [] ↔ given a "--outname" = some "") ∧
    (.store ∈ saveOutput a ↔ given a "--outname" ≠ some "") ∧
    (.fits ∈ saveOutput a ↔ given a "--outname" ≠ some "" ∧ (∃ t, t ≠ "" ∧ given a "--fitsout" = some t) ∧ given a "--sci_pix_scale" ≠ none) ∧
    (.typeError ∈ saveOutput a ↔ given a "--outname" ≠ some "" ∧ (∃ t, t ≠ "" ∧ given a "--fitsout" = some t) ∧ given a "--sci_pix_scale" = none) := by
  have hd : ("./mixtures/psf_nircam_ng4m0.h5" == "") = false := by decide +kernel
  unfold saveOutput
  cases given a "--outname" with
  | none =>
    simp only [Option.getD_none, hd, Bool.false_eq_true, if_false]
    cases given a "--fitsout" with
    | none => simp
    | some t => by_cases ht : t = "" <;> cases given a "--sci_pix_scale" <;> simp [ht]
  | some n =>
    by_cases hn : n = ""
    · simp [hn]
    · simp only [Option.getD_some, beq_iff_eq, hn, if_false]
      cases given a "--fitsout" with
      | none => simp [hn]
      | some t => by_cases ht : t = "" <;> cases given a "--sci_pix_scale" <;> simp [ht, hn]

/-- The word given last counts. -/
theorem C177_given (a b : List (String × List String)) (k v : String) (vs : List String) (hb : ∀ x ∈ b, x.1 ≠ k) :
    given (a ++ (k, v :: vs) :: b) k = some v ∧ given b k = none := by
  have hf : b.filter (fun x => x.1 == k) = [] := by
    rw [List.filter_eq_nil_iff]
    intro x hx
    simpa using hb x hx
  constructor
  · unfold given
    rw [List.filter_append, List.filter_cons]
    simp [hf]
  · simp [given, hf]

/-- The command of approx/psf/readme.md is understood, stores the mixture and then fails; those of the JWST demonstration write both. -/
theorem C177_save_refuted :
    (∃ c ∈ commands, ∃ r, c.doc = "approx/psf/readme.md" ∧ start c = .run r ∧ saveOutput r = [.store, .typeError]) ∧
    ∀ c ∈ commands, c.dir = "demo/demo_psf/make_jwst_psf" → c.program = "make_psf.py" →
      ∃ r, start c = .run r ∧ saveOutput r = [.store, .fits] := by
  constructor
  · have h : ∃ c ∈ commands, c.doc = "approx/psf/readme.md" ∧
        (match start c with | .run r => decide (saveOutput r = [.store, .typeError]) | _ => false) = true := by decide +kernel
    obtain ⟨c, hc, h1, h2⟩ := h
    split at h2
    · next r hr => exact ⟨c, hc, r, h1, hr, by simpa using h2⟩
    · cases h2
  · have h : ∀ c ∈ commands, c.dir = "demo/demo_psf/make_jwst_psf" → c.program = "make_psf.py" →
        (match start c with | .run r => decide (saveOutput r = [.store, .fits]) | _ => false) = true := by decide +kernel
    intro c hc h1 h2
    have := h c hc h1 h2
    split at this
    · next r hr => exact ⟨r, hr, by simpa using this⟩
    · cases this

/-! ## Bands and scales -/

/-- The number in the name of a filter, e.g. 277 of F277W. -/
def bandNumber (b : String) : Nat := ((b.toList.drop 1).take 3).foldl (fun n c => 10 * n + (c.toNat - '0'.toNat)) 0

/-- A loop over all of two lists of the same length fits every band, each with its scale. -/
theorem C177_loop (bands scales : List String) (h : bands.length = scales.length) (hi : Nat) (hh : hi + 1 = bands.length) :
    loop bands scales 0 hi = bands.zip scales := by
  unfold loop
  apply List.ext_getElem
  · simp [hh, h]
  · intro i h1 h2
    have hb : i < bands.length := by simp at h1; omega
    have hs : i < scales.length := by omega
    simp [hb, hs]

/-- The scripts fit the bands of the short-wave channel at 0.03 and those of the long-wave channel at 0.06 arcsec per pixel, the optical bands of
Hubble at 0.03 and its infrared bands at 0.06; the test of the JWST PSFs fits all nine of its bands. -/
theorem C177_scales :
    (∀ x ∈ demoBands.zip demoScales ++ loop jwstBands jwstScales 0 8, x.2 = if bandNumber x.1 < 235 then "0.03" else "0.06") ∧
    (∀ x ∈ hstBands.zip hstScales, x.2 = if 400 ≤ bandNumber x.1 then "0.03" else "0.06") ∧
    (loop jwstBands jwstScales 0 8).map (·.1) = ["F090W", "F115W", "F150W", "F200W", "F277W", "F335M", "F356W", "F410M", "F444W"] ∧
    (hstBands.zip hstScales).map (·.1) = ["F435W", "F606W", "F775W", "F814W", "F850LP", "F105W", "F125W", "F140W", "F160W"] := by
  refine ⟨?_, ?_, ?_, ?_⟩ <;> decide +kernel

/-- The script of the PSF demonstration lists fourteen bands and fits the last eight; the short-wave bands are never fit. -/
theorem C177_loop_refuted :
    demoBands.length = 14 ∧ (loop demoBands demoScales 6 13).map (·.1) = ["F277W", "F335M", "F356W", "F410M", "F444W", "F430M", "F460M", "F480M"] ∧
    ∀ b ∈ ["F090W", "F115W", "F150W", "F182M", "F200W", "F210M"], b ∈ demoBands ∧ b ∉ (loop demoBands demoScales 6 13).map (·.1) := by
  refine ⟨?_, ?_, ?_⟩ <;> decide +kernel

/-- The last option of the approximation script decides: its bands, trim and scale are used, and those of options before are forgotten. Without options
there are no bands; any other option ends the script. -/
theorem C177_channel (cs : List Char) (v : Channel) :
    channel [] unset = some ⟨[], none, none⟩ ∧
    (channel cs v = none ↔ ∃ c ∈ cs, c ≠ 's' ∧ c ≠ 'l') ∧
    ((∀ c ∈ cs, c = 's' ∨ c = 'l') →
      channel (cs ++ ['s']) v = some ⟨["f090w", "f115w", "f150w", "f200w", "f162m", "f182m", "f210m"], some 576, some "0.03"⟩ ∧
      channel (cs ++ ['l']) v =
        some ⟨["f277w", "f356w", "f444w", "f250m", "f300m", "f335m", "f410m", "f430m", "f460m", "f480m"], some 256, some "0.06"⟩) := by
  refine ⟨rfl, ?_, ?_⟩
  · induction cs generalizing v with
    | nil => simp [channel]
    | cons c cs ih =>
      unfold channel
      by_cases hs : c = 's'
      · simp [hs, ih]
      · by_cases hl : c = 'l'
        · simp [hl, ih]
        · simp [hs, hl]
  · induction cs generalizing v with
    | nil => intro _; exact ⟨rfl, rfl⟩
    | cons c cs ih =>
      intro h
      have h' : ∀ c ∈ cs, c = 's' ∨ c = 'l' := fun x hx => h x (by simp [hx])
      rw [List.cons_append, List.cons_append]
      unfold channel
      rcases h c (by simp) with rfl | rfl
      · simp only [if_true]
        exact ih _ h'
      · have : ('l' : Char) ≠ 's' := by decide
        simp only [this, if_false, if_true]
        exact ih _ h'

/-- Both channels together hold the bands of the script in two disjoint lists, each with the scale of its wavelengths; given both options the script
makes those of the last alone. -/
theorem C177_channel_scales (v : Channel) :
    (∀ c, channel ['s'] v = some c → c.bands.length = 7 ∧ ∀ b ∈ c.bands, bandNumber b < 235 ∧ c.pscale = some "0.03") ∧
    (∀ c, channel ['l'] v = some c → c.bands.length = 10 ∧ ∀ b ∈ c.bands, 235 ≤ bandNumber b ∧ c.pscale = some "0.06") ∧
    channel ['s', 'l'] v = channel ['l'] v := by
  refine ⟨?_, ?_, rfl⟩
  · intro c hc
    obtain rfl := Option.some.inj hc
    exact ⟨rfl, by decide +kernel⟩
  · intro c hc
    obtain rfl := Option.some.inj hc
    exact ⟨rfl, by decide +kernel⟩

/-! ## GPUs -/

/-- Every client of a node with `g` GPUs gets one of them. -/
theorem C177_gpu (i g : Nat) : (gpu i g = none ↔ g = 0) ∧ ∀ j, gpu i g = some j → j < g ∧ ∃ k, i = k * g + j := by
  unfold gpu
  by_cases hg : g = 0
  · simp [hg]
  · simp only [hg, if_false, Option.some.injEq]
    refine ⟨by simp, ?_⟩
    rintro j rfl
    exact ⟨Nat.mod_lt _ (Nat.pos_of_ne_zero hg), i / g, by rw [Nat.mul_comm]; exact (Nat.div_add_mod i g).symm⟩

theorem gpu_count (n g j : Nat) (hg : 0 < g) (hj : j < g) :
    (List.range n).countP (fun i => gpu i g == some j) = n / g + if j < n % g then 1 else 0 := by
  have h := Nat.count_modEq_card n hg j
  rw [Nat.mod_eq_of_lt hj] at h
  rw [← h, Nat.count]
  apply List.countP_congr
  intro i _
  simp [gpu, Nat.pos_iff_ne_zero.1 hg, Nat.ModEq, Nat.mod_eq_of_lt hj]

/-- The clients of a node share its GPUs evenly: of `n` clients every GPU has `n / g` or one more, so the loads of two GPUs differ by one at most. -/
theorem C177_gpus_even (n g j k : Nat) (hg : 0 < g) (hj : j < g) (hk : k < g) :
    (List.range n).countP (fun i => gpu i g == some j) ≤ (List.range n).countP (fun i => gpu i g == some k) + 1 ∧
    n / g ≤ (List.range n).countP (fun i => gpu i g == some j) := by
  rw [gpu_count n g j hg hj, gpu_count n g k hg hk]
  constructor
  · split <;> split <;> omega
  · omega

/-- No GPU is shared exactly if there are no more clients than GPUs, and none is idle exactly if there are no fewer. -/
theorem C177_gpus_alone (n g : Nat) (hg : 0 < g) :
    ((∀ i < n, ∀ k < n, gpu i g = gpu k g → i = k) ↔ n ≤ g) ∧ ((∀ j < g, ∃ i < n, gpu i g = some j) ↔ g ≤ n) := by
  have e : ∀ i, gpu i g = some (i % g) := fun i => by simp [gpu, Nat.pos_iff_ne_zero.1 hg]
  simp only [e, Option.some.injEq]
  constructor
  · constructor
    · intro h
      by_contra hn
      have := h 0 (by omega) g (by omega) (by simp)
      omega
    · intro h i hi k hk hik
      rwa [Nat.mod_eq_of_lt (by omega), Nat.mod_eq_of_lt (by omega)] at hik
  · constructor
    · intro h
      by_contra hn
      obtain ⟨i, hi, hm⟩ := h (g - 1) (by omega)
      rw [Nat.mod_eq_of_lt (by omega)] at hm
      omega
    · intro h j hj
      exact ⟨j, by omega, Nat.mod_eq_of_lt hj⟩

example : (List.range 7).map (fun i => gpu i 3) = [some 0, some 1, some 2, some 0, some 1, some 2, some 0] := by decide

end Forcepho.Commands
