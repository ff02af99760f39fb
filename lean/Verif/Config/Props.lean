import Verif.Config.Model
import Mathlib.Data.String.Basic
import Mathlib.Data.List.Infix

/-! # C61, C77: configuration -/

set_option autoImplicit false
set_option linter.unusedSectionVars false

namespace Forcepho.Config

/-! ## C61 -/

/-- What the last mention of an option on the command line says, if there is one. -/
def given (p : Parser) (items : List Item) (k : String) : Option Val :=
  ((items.filter fun i => decide (i.meant.1 = k)).getLast?).map fun i => p.conv k i.meant.2

/-- A value other than None. -/
def Val.real : Val → Prop
  | .none => False
  | _ => True

/-- First of two optional values that is there and not None. -/
def orElse (a b : Option Val) : Option Val :=
  match a with
  | some .none => b
  | some v => some v
  | Option.none => b

/-- Command lines in which every option is written `--name values`, with values that do not start like
an option. -/
def Plain (items : List Item) : Prop :=
  ∀ i ∈ items, ∃ n vs, i = .long n vs ∧ ∀ v ∈ vs, ¬ ∃ t, v = "--" ++ t

lemma dash_inj {a b : String} (h : "--" ++ a = "--" ++ b) : a = b := by
  have := congrArg String.toList h
  simp only [String.toList_append] at this
  exact String.toList_inj.mp (List.append_cancel_left this)

lemma mem_render_plain {items : List Item} (h : Plain items) (k : String) :
    "--" ++ k ∈ render items ↔ ∃ i ∈ items, i.meant.1 = k := by
  unfold render
  rw [List.mem_flatMap]
  constructor
  · rintro ⟨i, hi, hm⟩
    refine ⟨i, hi, ?_⟩
    obtain ⟨n, vs, rfl, hv⟩ := h i hi
    rcases List.mem_cons.mp hm with he | he
    · exact (dash_inj he).symm
    · exact absurd ⟨k, rfl⟩ (hv _ he)
  · rintro ⟨i, hi, hk⟩
    refine ⟨i, hi, ?_⟩
    obtain ⟨n, vs, rfl, -⟩ := h i hi
    obtain rfl : n = k := hk
    exact List.mem_cons_self

lemma given_none_iff (p : Parser) (items : List Item) (k : String) :
    given p items k = Option.none ↔ ¬ ∃ i ∈ items, i.meant.1 = k := by
  unfold given
  rw [Option.map_eq_none_iff, List.getLast?_eq_none_iff, List.filter_eq_nil_iff]
  simp

lemma parse_at (p : Parser) (items : List Item) (ns : Namespace) (h : parseArgs p items = some ns) (k : String)
    (hk : k ∈ p.names) : ns k = some ((given p items k).getD (p.default k)) := by
  unfold parseArgs at h
  split at h
  · obtain rfl := Option.some.inj h
    simp only [if_pos hk]; rfl
  · cases h

/-- C61 (what the code does). Whatever the spelling, the configured value of an option is the command
line's if the string `--name` occurs on it, otherwise the file's if it is there and not null,
otherwise the default. -/
theorem C61_merge (p : Parser) (files : String → Option Namespace) (items : List Item) (config : Namespace)
    (h : mergeAll p files items = some config) (k : String) (hk : k ∈ p.names) :
    ∃ yargs : Option Namespace,
      config k = orElse (if "--" ++ k ∈ render items then some ((given p items k).getD (p.default k)) else Option.none)
        (orElse (yargs.bind fun y => y k) (some (p.default k))) ∧
      ∃ file : Val, readYaml files file = some yargs ∧
        file = (orElse (if "--" ++ "config_file" ∈ render items ∧ "config_file" ∈ p.names then
            some ((given p items "config_file").getD (p.default "config_file")) else Option.none)
          (if "config_file" ∈ p.names then some (p.default "config_file") else Option.none)).getD .none := by
  unfold mergeAll at h
  obtain ⟨defargs, hd, h⟩ := Option.bind_eq_some_iff.mp h
  obtain ⟨clargs, hc, h⟩ := Option.bind_eq_some_iff.mp h
  obtain ⟨yargs, hy, rfl⟩ := Option.map_eq_some_iff.mp h
  unfold newArgs at hc
  obtain ⟨ns, hns, rfl⟩ := Option.map_eq_some_iff.mp hc
  have hdef : ∀ x ∈ p.names, defargs x = some (p.default x) := by
    intro x hx
    rw [parse_at p [] defargs hd x hx]; rfl
  have hnot : ∀ (its : List Item) (n : Namespace), parseArgs p its = some n → ∀ x, x ∉ p.names → n x = Option.none := by
    intro its n hn x hx
    unfold parseArgs at hn
    split at hn
    · obtain rfl := Option.some.inj hn
      simp only [if_neg hx]
    · cases hn
  refine ⟨yargs, ?_, _, hy, ?_⟩
  · have hk1 := parse_at p items ns hns k hk
    have hk2 := hdef k hk
    unfold updateConfig
    by_cases hm : "--" ++ k ∈ render items
    · simp only [if_pos hm, hk1]
      generalize (given p items k).getD (p.default k) = v
      cases yargs with
      | none => cases v <;> simp [orElse, hk2]
      | some y =>
        simp only [hk2, Option.bind_some]
        cases hyk : y k with
        | none => cases v <;> simp [orElse]
        | some w => cases w <;> cases v <;> simp [orElse]
    · simp only [if_neg hm]
      cases yargs with
      | none => simp [orElse, hk2]
      | some y =>
        simp only [hk2, Option.bind_some]
        cases hyk : y k with
        | none => simp [orElse]
        | some w => cases w <;> simp [orElse]
  · unfold configFile getattr
    by_cases hcf : "config_file" ∈ p.names
    · beta_reduce
      rw [parse_at p items ns hns _ hcf, hdef _ hcf]
      by_cases hm : "--" ++ "config_file" ∈ render items
      · simp only [hm, hcf, true_and, if_true, Option.getD_some]
        generalize (given p items "config_file").getD (p.default "config_file") = v
        cases v <;> simp [orElse]
      · rw [if_neg hm, if_neg (fun h => hm h.1), if_pos hcf]
        rfl
    · beta_reduce
      rw [hnot items ns hns _ hcf, hnot [] defargs hd _ hcf]
      simp [hcf, orElse]

/-- C61 (precedence). If every option on the command line is written `--name values`, the configured
value of an option is the last one given there, otherwise the file's if it is there and not null,
otherwise the default; the file is the one named on the command line, or by default. -/
theorem C61_precedence_partial (p : Parser) (files : String → Option Namespace) (items : List Item)
    (hplain : Plain items) (hconv : ∀ k vs, (p.conv k vs).real) (config : Namespace)
    (h : mergeAll p files items = some config) (k : String) (hk : k ∈ p.names) :
    ∃ yargs : Option Namespace,
      config k = orElse (given p items k) (orElse (yargs.bind fun y => y k) (some (p.default k))) ∧
      ("config_file" ∈ p.names → readYaml files ((orElse (given p items "config_file")
        (some (p.default "config_file"))).getD .none) = some yargs) := by
  obtain ⟨yargs, h1, file, h2, h3⟩ := C61_merge p files items config h k hk
  have hg : ∀ x, (if "--" ++ x ∈ render items then some ((given p items x).getD (p.default x)) else Option.none) =
      given p items x := by
    intro x
    by_cases hm : "--" ++ x ∈ render items
    · rw [if_pos hm]
      rw [mem_render_plain hplain] at hm
      cases hgv : given p items x with
      | none => exact absurd hm ((given_none_iff p items x).mp hgv)
      | some v => rfl
    · rw [if_neg hm]
      rw [mem_render_plain hplain] at hm
      exact ((given_none_iff p items x).mpr hm).symm
  refine ⟨yargs, ?_, ?_⟩
  · rw [h1, hg]
  · intro hcf
    rw [← h2, h3]
    simp only [hcf, and_true, if_true]
    rw [hg]

/-- C61 refuted, in general: an option given only in the form `--name=value` or by an abbreviation has
no effect; the file or the default decides. -/
theorem C61_refuted (p : Parser) (files : String → Option Namespace) (items : List Item) (config : Namespace)
    (h : mergeAll p files items = some config) (k : String) (hk : k ∈ p.names) (hkf : '=' ∉ k.toList)
    (hitems : ∀ i ∈ items, match i with
      | .long n vs => n ≠ k ∧ ∀ v ∈ vs, ¬ ∃ t, v = "--" ++ t
      | .eq _ _ => True
      | .short pre _ vs => pre ≠ k ∧ ∀ v ∈ vs, ¬ ∃ t, v = "--" ++ t) :
    ∃ yargs : Option Namespace, config k = orElse (yargs.bind fun y => y k) (some (p.default k)) := by
  obtain ⟨yargs, h1, -⟩ := C61_merge p files items config h k hk
  refine ⟨yargs, ?_⟩
  have hm : ¬ ("--" ++ k ∈ render items) := by
    unfold render
    rw [List.mem_flatMap]
    rintro ⟨i, hi, hmem⟩
    have := hitems i hi
    cases i with
    | long n vs =>
      rcases List.mem_cons.mp hmem with he | he
      · exact this.1 (dash_inj he).symm
      · exact this.2 _ he ⟨k, rfl⟩
    | eq n v =>
      simp only [Item.render, List.mem_singleton] at hmem
      rw [String.append_assoc, String.append_assoc] at hmem
      have hk2 := dash_inj hmem
      apply hkf
      rw [hk2]
      simp [String.toList_append]
    | short pre n vs =>
      rcases List.mem_cons.mp hmem with he | he
      · exact this.1 (dash_inj he).symm
      · exact this.2 _ he ⟨k, rfl⟩
  rw [h1, if_neg hm]
  rfl

/-- A parser with two options. -/
def exParser : Parser := ⟨["config_file", "gtol"], fun k => if k = "gtol" then .num 1 else .none,
  fun k vs => if k = "gtol" then .num vs.length else .str (vs.headD "")⟩

/-- A file that sets one of them. -/
def exFiles : String → Option Namespace := fun f =>
  if f = "a.yml" then some fun k => if k = "gtol" then some (.num 5) else Option.none else Option.none

/-- C61, witness: the same file named in the two spellings; with `=` it is not even read. -/
theorem C61_witness :
    (mergeAll exParser exFiles [.long "config_file" ["a.yml"]]).bind (fun c => c "gtol") = some (.num 5) ∧
    (mergeAll exParser exFiles [.eq "config_file" "a.yml"]).bind (fun c => c "gtol") = some (.num 1) ∧
    (mergeAll exParser exFiles [.eq "config_file" "missing.yml"]).isSome = true := by
  decide +kernel

/-- C61, a null in the file does not override. -/
theorem C61_null (y : Namespace) (k : String) (d : Namespace) (hy : y k = some .none) :
    updateConfig d (some y) k = d k := by
  simp only [updateConfig, hy]

/-- C61 (`read_config`). When the arguments passed are a full parse of the command line, every parser
default that is not None overrides the file: the file decides only options whose default is None. -/
theorem C61_read_config (p : Parser) (files : String → Option Namespace) (file : String) (items : List Item)
    (args : Namespace) (hargs : parseArgs p items = some args) (config : Namespace)
    (h : mergeRead files file (some args) = some config) (k : String) (hk : k ∈ p.names)
    (hconv : ∀ k vs, (p.conv k vs).real) :
    ∃ y, files file = some y ∧
      config k = orElse (given p items k) (orElse (some (p.default k)) (y k)) := by
  unfold mergeRead at h
  obtain ⟨y, hy, rfl⟩ := Option.map_eq_some_iff.mp h
  refine ⟨y, hy, ?_⟩
  have hk1 := parse_at p items args hargs k hk
  simp only [updateConfig, hk1]
  cases hg : given p items k with
  | none =>
    simp only [Option.getD_none, orElse]
    cases p.default k <;> simp
  | some v =>
    have : v.real := by
      unfold given at hg
      obtain ⟨i, -, rfl⟩ := Option.map_eq_some_iff.mp hg
      exact hconv _ _
    cases v <;> simp [orElse, Val.real] at this ⊢

/-! ## C77: rectification -/

/-- A name that contains `dtype`. -/
def DtypeName (k : String) : Prop := ∃ a b, k.toList = a ++ ['d', 't', 'y', 'p', 'e'] ++ b

lemma isDtype_iff (k : String) : isDtype k = true ↔ DtypeName k := by
  unfold isDtype DtypeName
  rw [List.any_eq_true]
  constructor
  · rintro ⟨t, ht, hp⟩
    rw [List.mem_tails] at ht
    obtain ⟨a, ha⟩ := ht
    obtain ⟨b, hb⟩ := List.isPrefixOf_iff_prefix.mp hp
    exact ⟨a, b, by rw [← ha, ← hb, List.append_assoc]; rfl⟩
  · rintro ⟨a, b, h⟩
    refine ⟨['d', 't', 'y', 'p', 'e'] ++ b, ?_, ?_⟩
    · rw [List.mem_tails, h, List.append_assoc]; exact List.suffix_append _ _
    · rw [List.isPrefixOf_iff_prefix]; exact List.prefix_append _ _

lemma loop_spec (expand : String → String) (types : List String) (keys : List String) :
    ∀ (ns out : Namespace), keys.Nodup → rectifyLoop expand types keys ns = some out →
    (∀ k, k ∉ keys → out k = ns k) ∧
    (∀ k ∈ keys, ∀ v, ns k = some v → out k = rectifyOne expand types k v ∧
      rectifyOne expand types k v ≠ Option.none) ∧
    (∀ k, ns k = Option.none → out k = Option.none) := by
  induction keys with
  | nil =>
    intro ns out _ h
    obtain rfl := Option.some.inj h
    exact ⟨fun _ _ => rfl, fun k hk => absurd hk (by simp), fun _ h => h⟩
  | cons key rest ih =>
    intro ns out hn h
    obtain ⟨hn1, hn2⟩ := List.nodup_cons.mp hn
    rw [rectifyLoop] at h
    cases hv : ns key with
    | none =>
      rw [hv] at h
      obtain ⟨i1, i2, i3⟩ := ih ns out hn2 h
      refine ⟨fun k hk => i1 k (fun hm => hk (List.mem_cons_of_mem _ hm)), ?_, i3⟩
      intro k hk v hkv
      rcases List.mem_cons.mp hk with rfl | hk
      · rw [hv] at hkv; cases hkv
      · exact i2 k hk v hkv
    | some v =>
      rw [hv] at h
      obtain ⟨v', hv', h⟩ := Option.bind_eq_some_iff.mp h
      obtain ⟨i1, i2, i3⟩ := ih _ out hn2 h
      refine ⟨?_, ?_, ?_⟩
      · intro k hk
        rw [List.mem_cons, not_or] at hk
        rw [i1 k hk.2]
        simp [setattr, hk.1]
      · intro k hk w hkw
        rcases List.mem_cons.mp hk with rfl | hk'
        · rw [hv] at hkw
          obtain rfl := Option.some.inj hkw
          rw [i1 k hn1, hv']
          simp [setattr]
        · have hne : k ≠ key := by rintro rfl; exact hn1 hk'
          exact i2 k hk' w (by simp [setattr, hne, hkw])
      · intro k hk
        have hne : k ≠ key := by rintro rfl; rw [hv] at hk; cases hk
        exact i3 k (by simp [setattr, hne, hk])

/-- C77. After rectification, without a store directory: strings have their variables expanded, lists
are arrays, dtype options are dtypes, everything else is unchanged, nothing is added or removed; and
the bounds dictionary holds exactly the non-null bounds options, as they are in the configuration. -/
theorem C77_values (join : String → String → String) (expand : String → String) (types : List String)
    (keys : List String) (ns out b : Namespace) (hk : keys.Nodup)
    (hkeys : ∀ k, k ∈ keys ↔ ns k ≠ Option.none) (hdir : storeDir ns = Option.none)
    (h : rectify join expand types keys ns = some (out, b)) :
    (∀ k, ns k = Option.none ↔ out k = Option.none) ∧
    (∀ k s, ¬ DtypeName k → ns k = some (.str s) → out k = some (.str (expand s))) ∧
    (∀ k l, ¬ DtypeName k → ns k = some (.list l) → out k = some (.array l)) ∧
    (∀ k x, ¬ DtypeName k → ns k = some (.num x) → out k = some (.num x)) ∧
    (∀ k s, DtypeName k → ns k = some (.str s) → s ∈ types ∧ out k = some (.dtype s)) ∧
    (∀ k v, b k = some v ↔ k ∈ ["sqrtq_range", "sersic_range", "rhalf_range", "pa_range", "dpos", "n_sig_flux",
      "n_pix", "pixscale"] ∧ out k = some v ∧ v ≠ .none) := by
  unfold rectify at h
  simp only [hdir, Option.bind_some] at h
  obtain ⟨o, ho, heq⟩ := Option.map_eq_some_iff.mp h
  obtain ⟨rfl, rfl⟩ := Prod.mk.inj heq
  obtain ⟨-, h2, h3⟩ := loop_spec expand types keys ns o hk ho
  have hin : ∀ k v, ns k = some v → o k = rectifyOne expand types k v ∧ rectifyOne expand types k v ≠ Option.none :=
    fun k v hv => h2 k ((hkeys k).mpr (by rw [hv]; simp)) v hv
  refine ⟨?_, ?_, ?_, ?_, ?_, ?_⟩
  · intro k
    refine ⟨h3 k, ?_⟩
    intro hkn
    by_contra hne
    obtain ⟨v, hv⟩ := Option.ne_none_iff_exists'.mp hne
    obtain ⟨g1, g2⟩ := hin k v hv
    exact g2 (by rw [← g1, hkn])
  · intro k s hd hv
    rw [← isDtype_iff] at hd
    rw [(hin k _ hv).1]; simp [rectifyOne, hd]
  · intro k s hd hv
    rw [← isDtype_iff] at hd
    rw [(hin k _ hv).1]; simp [rectifyOne, hd]
  · intro k s hd hv
    rw [← isDtype_iff] at hd
    rw [(hin k _ hv).1]; simp [rectifyOne, hd]
  · intro k s hd hv
    obtain ⟨g1, g2⟩ := hin k _ hv
    rw [← isDtype_iff] at hd
    simp only [rectifyOne, hd, if_true] at g1 g2
    by_cases hs : s ∈ types
    · rw [if_pos hs] at g1; exact ⟨hs, g1⟩
    · rw [if_neg hs] at g2; exact absurd rfl g2
  · intro k v
    unfold boundsKwargs boundsFields
    by_cases hm : k ∈ ["sqrtq_range", "sersic_range", "rhalf_range", "pa_range", "dpos", "n_sig_flux",
      "n_pix", "pixscale"]
    · rw [if_pos hm]
      cases hok : o k with
      | none => simp
      | some w =>
        cases w <;> simp [hm] <;> (try rintro rfl) <;> simp
    · rw [if_neg hm]; simp [hm]

/-- C77 (store paths). With a store directory, each of the three store files that is set is put under
it, before expansion; other options are not touched by this step. -/
theorem C77_store (join : String → String → String) (dir : String) (ns out : Namespace)
    (h : storePaths join dir ["pixelstorefile", "metastorefile", "psfstorefile"] ns = some out) :
    (∀ k ∈ ["pixelstorefile", "metastorefile", "psfstorefile"],
      (ns k = Option.none ∧ out k = Option.none) ∨ ∃ s, ns k = some (.str s) ∧ out k = some (.str (join dir s))) ∧
    (∀ k, k ∉ ["pixelstorefile", "metastorefile", "psfstorefile"] → out k = ns k) := by
  have gen : ∀ (l : List String) (ns out : Namespace), l.Nodup → storePaths join dir l ns = some out →
      (∀ k ∈ l, (ns k = Option.none ∧ out k = Option.none) ∨
        ∃ s, ns k = some (.str s) ∧ out k = some (.str (join dir s))) ∧ (∀ k, k ∉ l → out k = ns k) := by
    intro l
    induction l with
    | nil =>
      intro ns out _ h
      obtain rfl := Option.some.inj h
      exact ⟨fun k hk => absurd hk (by simp), fun _ _ => rfl⟩
    | cons a rest ih =>
      intro ns out hn h
      obtain ⟨hn1, hn2⟩ := List.nodup_cons.mp hn
      rw [storePaths] at h
      cases hv : ns a with
      | none =>
        rw [hv] at h
        obtain ⟨i1, i2⟩ := ih ns out hn2 h
        refine ⟨?_, fun k hk => i2 k (fun hm => hk (List.mem_cons_of_mem _ hm))⟩
        intro k hk
        rcases List.mem_cons.mp hk with rfl | hk
        · left; exact ⟨hv, by rw [i2 k hn1, hv]⟩
        · exact i1 k hk
      | some v =>
        rw [hv] at h
        cases v with
        | str s =>
          obtain ⟨i1, i2⟩ := ih _ out hn2 h
          refine ⟨?_, ?_⟩
          · intro k hk
            rcases List.mem_cons.mp hk with rfl | hk'
            · right; exact ⟨s, hv, by rw [i2 k hn1]; simp [setattr]⟩
            · have hne : k ≠ a := by rintro rfl; exact hn1 hk'
              have := i1 k hk'
              simpa [setattr, hne] using this
          · intro k hk
            rw [List.mem_cons, not_or] at hk
            rw [i2 k hk.2]; simp [setattr, hk.1]
        | _ => cases h
  exact gen _ ns out (by decide) h

/-- C77, a store directory with a store file left at its default None raises. -/
theorem C77_store_none (join : String → String → String) (dir : String) (ns : Namespace)
    (h : ns "pixelstorefile" = some .none) :
    storePaths join dir ["pixelstorefile", "metastorefile", "psfstorefile"] ns = Option.none := by
  simp only [storePaths, h]

/-- `C77_values` and `C77_store` together: when a configuration is read, each store file ends as its
environment-expanded path, under the store directory exactly if one that is not empty is named; the store
directory itself is only expanded. -/
theorem C77_directory (join : String → String → String) (expand : String → String) (types : List String)
    (keys : List String) (ns out b : Namespace) (hk : keys.Nodup)
    (hkeys : ∀ k, k ∈ keys ↔ ns k ≠ Option.none)
    (h : rectify join expand types keys ns = some (out, b)) :
    (∀ d, ns "store_directory" = some (.str d) → d ≠ "" →
      out "store_directory" = some (.str (expand d)) ∧
      ∀ k ∈ ["pixelstorefile", "metastorefile", "psfstorefile"],
        (ns k = Option.none ∧ out k = Option.none) ∨
        ∃ s, ns k = some (.str s) ∧ out k = some (.str (expand (join d s)))) ∧
    (ns "store_directory" = Option.none ∨ ns "store_directory" = some .none ∨
        ns "store_directory" = some (.str "") →
      ∀ k ∈ ["pixelstorefile", "metastorefile", "psfstorefile"], ∀ s, ns k = some (.str s) →
        out k = some (.str (expand s))) := by
  have notd : ∀ k ∈ ["pixelstorefile", "metastorefile", "psfstorefile", "store_directory"], isDtype k = false := by
    decide +kernel
  constructor
  · intro d hd hne
    have hsd : storeDir ns = some d := by
      unfold storeDir
      rw [hd]
      dsimp only
      rw [if_neg hne]
    unfold rectify at h
    simp only [hsd] at h
    obtain ⟨ns', hst, h⟩ := Option.bind_eq_some_iff.mp h
    obtain ⟨o, ho, heq⟩ := Option.map_eq_some_iff.mp h
    obtain ⟨rfl, rfl⟩ := Prod.mk.inj heq
    obtain ⟨s1, s2⟩ := C77_store join d ns ns' hst
    obtain ⟨-, l2, l3⟩ := loop_spec expand types keys ns' o hk ho
    refine ⟨?_, ?_⟩
    · have e : ns' "store_directory" = some (.str d) := by rw [s2 _ (by decide), hd]
      have hm : "store_directory" ∈ keys := (hkeys _).mpr (by rw [hd]; simp)
      rw [(l2 _ hm _ e).1]
      simp [rectifyOne, notd "store_directory" (by decide)]
    · intro k hkm
      rcases s1 k hkm with ⟨n1, n2⟩ | ⟨s, n1, n2⟩
      · exact Or.inl ⟨n1, l3 k n2⟩
      · refine Or.inr ⟨s, n1, ?_⟩
        have hm : k ∈ keys := (hkeys _).mpr (by rw [n1]; simp)
        rw [(l2 _ hm _ n2).1]
        have hnd : isDtype k = false := notd k (by
          simp only [List.mem_cons, List.not_mem_nil, or_false] at hkm ⊢
          tauto)
        simp [rectifyOne, hnd]
  · intro hd k hkm s hs
    have hsd : storeDir ns = Option.none := by
      unfold storeDir
      rcases hd with hd | hd | hd <;> rw [hd]
      rfl
    unfold rectify at h
    simp only [hsd, Option.bind_some] at h
    obtain ⟨o, ho, heq⟩ := Option.map_eq_some_iff.mp h
    obtain ⟨rfl, rfl⟩ := Prod.mk.inj heq
    obtain ⟨-, l2, -⟩ := loop_spec expand types keys ns o hk ho
    have hm : k ∈ keys := (hkeys _).mpr (by rw [hs]; simp)
    rw [(l2 _ hm _ hs).1]
    have hnd : isDtype k = false := notd k (by
      simp only [List.mem_cons, List.not_mem_nil, or_false] at hkm ⊢
      tauto)
    simp [rectifyOne, hnd]

/-- A configuration with a store directory. -/
example : (rectify (fun a b => a ++ "/" ++ b) (fun s => s ++ "!") []
    ["store_directory", "pixelstorefile"] (fun k => if k = "store_directory" then some (.str "/data") else
      if k = "pixelstorefile" then some (.str "p.h5") else Option.none)).map
    (fun r => (r.1 "pixelstorefile", r.1 "store_directory", r.1 "metastorefile")) =
    some (some (.str "/data/p.h5!"), some (.str "/data!"), Option.none) := by
  decide +kernel

/-- A configuration to which `C77_values` applies. -/
example : (rectify (fun a b => a ++ "/" ++ b) (fun s => s ++ "!") ["float32"]
    ["pix_dtype", "outbase", "pa_range"] (fun k => if k = "pix_dtype" then some (.str "float32") else
      if k = "outbase" then some (.str "$HOME") else if k = "pa_range" then some (.list [-2, 2]) else Option.none)).map
    (fun r => (r.1 "pix_dtype", r.1 "outbase", r.2 "pa_range", r.2 "outbase")) =
    some (some (.dtype "float32"), some (.str "$HOME!"), some (.array [-2, 2]), Option.none) := by
  decide +kernel

end Forcepho.Config
