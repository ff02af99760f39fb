import Verif.Config.Props
import Mathlib.Data.Rat.Defs

/-! # Property C143: saving the configuration as JSON

The scripts write `vars(config)` with `NumpyEncoder` (utils/__init__.py:34-48), `write_to_disk` writes it
without (utils/io.py:38-43).  The standard library's writer is modelled on trees: the text it produces for a
tree is read back as that tree. -/

set_option autoImplicit false

namespace Forcepho.Config

/-- Python values that meet the encoder.  `array` is a numpy array with the nested list that `tolist`
returns, `type` a class with its qualified name, `npInt`, `npFloat` and `npBool` numpy scalars (double precision
ones are Python floats), `other` any other object. -/
inductive Py where
  | none
  | bool (b : Bool)
  | int (n : Int)
  | float (x : ℚ)
  | str (s : String)
  | list (l : List Py)
  | tuple (l : List Py)
  | dict (l : List (String × Py))
  | array (data : Py)
  | type (name : String)
  | npInt (n : Int)
  | npFloat (x : ℚ)
  | npBool (b : Bool)
  | other

/-- JSON trees. -/
inductive Json where
  | null
  | bool (b : Bool)
  | int (n : Int)
  | float (x : ℚ)
  | str (s : String)
  | arr (l : List Json)
  | obj (l : List (String × Json))

mutual

/-- `json.dumps`, with the encoder (`np`, utils/__init__.py:34-48) or without; `none` is `TypeError`. -/
def encode (np : Bool) : Py → Option Json
  | .none => some .null
  | .bool b => some (.bool b)
  | .int n => some (.int n)
  | .float x => some (.float x)
  | .str s => some (.str s)
  | .list l => (encodeList np l).map .arr
  | .tuple l => (encodeList np l).map .arr
  | .dict l => (encodeDict np l).map .obj
  | .array data => if np then encode np data else Option.none
  | .type name => if np then some (.str ("<class '" ++ name ++ "'>")) else Option.none
  | .npInt n => if np then some (.int n) else Option.none
  | .npFloat x => if np then some (.float x) else Option.none
  | .npBool _ => Option.none
  | .other => Option.none

/-- The elements of a list, from the left. -/
def encodeList (np : Bool) : List Py → Option (List Json)
  | [] => some []
  | v :: l => (encode np v).bind fun j => (encodeList np l).map fun js => j :: js

/-- The items of a dictionary with string keys. -/
def encodeDict (np : Bool) : List (String × Py) → Option (List (String × Json))
  | [] => some []
  | (k, v) :: l => (encode np v).bind fun j => (encodeDict np l).map fun js => (k, j) :: js

end

mutual

/-- `json.loads`. -/
def decode : Json → Py
  | .null => .none
  | .bool b => .bool b
  | .int n => .int n
  | .float x => .float x
  | .str s => .str s
  | .arr l => .list (decodeList l)
  | .obj l => .dict (decodeDict l)

/-- The elements of a list. -/
def decodeList : List Json → List Py
  | [] => []
  | j :: l => decode j :: decodeList l

/-- The items of a dictionary. -/
def decodeDict : List (String × Json) → List (String × Py)
  | [] => []
  | (k, j) :: l => (k, decode j) :: decodeDict l

end

/-! ## Specification -/

/-- `Inside u v`: the value `u` occurs in `v`, at any depth. -/
inductive Inside (u : Py) : Py → Prop where
  | self : Inside u u
  | list (l : List Py) (v : Py) : v ∈ l → Inside u v → Inside u (.list l)
  | tuple (l : List Py) (v : Py) : v ∈ l → Inside u v → Inside u (.tuple l)
  | dict (l : List (String × Py)) (k : String) (v : Py) : (k, v) ∈ l → Inside u v → Inside u (.dict l)
  | array (data : Py) : Inside u data → Inside u (.array data)

/-- `Back v w`: `w` is what a reader should expect in place of `v`. -/
inductive Back : Py → Py → Prop where
  | none : Back .none .none
  | bool (b : Bool) : Back (.bool b) (.bool b)
  | int (n : Int) : Back (.int n) (.int n)
  | float (x : ℚ) : Back (.float x) (.float x)
  | str (s : String) : Back (.str s) (.str s)
  | list (l l' : List Py) : List.Forall₂ Back l l' → Back (.list l) (.list l')
  | tuple (l l' : List Py) : List.Forall₂ Back l l' → Back (.tuple l) (.list l')
  | dict (l : List (String × Py)) (vs : List Py) : List.Forall₂ Back (l.map (·.2)) vs →
      Back (.dict l) (.dict ((l.map (·.1)).zip vs))
  | array (data w : Py) : Back data w → Back (.array data) w
  | type (name : String) : Back (.type name) (.str ("<class '" ++ name ++ "'>"))
  | npInt (n : Int) : Back (.npInt n) (.int n)
  | npFloat (x : ℚ) : Back (.npFloat x) (.float x)

/-- Values of the language itself, without numpy. -/
inductive Native : Py → Prop where
  | none : Native .none
  | bool (b : Bool) : Native (.bool b)
  | int (n : Int) : Native (.int n)
  | float (x : ℚ) : Native (.float x)
  | str (s : String) : Native (.str s)
  | list (l : List Py) : (∀ v ∈ l, Native v) → Native (.list l)
  | dict (l : List (String × Py)) : (∀ k v, (k, v) ∈ l → Native v) → Native (.dict l)

/-- Objects of numpy, classes and other objects. -/
def Foreign : Py → Prop
  | .array _ | .type _ | .npInt _ | .npFloat _ | .npBool _ | .other => True
  | _ => False

/-- What even the encoder does not know. -/
def Unknown : Py → Prop
  | .npBool _ | .other => True
  | _ => False

/-! ## Reading back -/

mutual

lemma encode_back (np : Bool) : ∀ (v : Py) (j : Json), encode np v = some j → Back v (decode j)
  | .none, j, h => by simp only [encode, Option.some.injEq] at h; subst h; exact .none
  | .bool b, j, h => by simp only [encode, Option.some.injEq] at h; subst h; exact .bool b
  | .int n, j, h => by simp only [encode, Option.some.injEq] at h; subst h; exact .int n
  | .float x, j, h => by simp only [encode, Option.some.injEq] at h; subst h; exact .float x
  | .str s, j, h => by simp only [encode, Option.some.injEq] at h; subst h; exact .str s
  | .list l, j, h => by
    simp only [encode, Option.map_eq_some_iff] at h
    obtain ⟨js, hj, rfl⟩ := h
    simp only [decode]
    exact .list _ _ (encodeList_back np l js hj)
  | .tuple l, j, h => by
    simp only [encode, Option.map_eq_some_iff] at h
    obtain ⟨js, hj, rfl⟩ := h
    simp only [decode]
    exact .tuple _ _ (encodeList_back np l js hj)
  | .dict l, j, h => by
    simp only [encode, Option.map_eq_some_iff] at h
    obtain ⟨js, hj, rfl⟩ := h
    simp only [decode]
    obtain ⟨vs, h1, h2⟩ := encodeDict_back np l js hj
    rw [h2]
    exact .dict _ _ h1
  | .array data, j, h => by
    simp only [encode] at h
    split at h
    · exact .array _ _ (encode_back np data j h)
    · cases h
  | .type name, j, h => by
    simp only [encode] at h
    split at h
    · simp only [Option.some.injEq] at h; subst h; exact .type name
    · cases h
  | .npInt n, j, h => by
    simp only [encode] at h
    split at h
    · simp only [Option.some.injEq] at h; subst h; exact .npInt n
    · cases h
  | .npFloat x, j, h => by
    simp only [encode] at h
    split at h
    · simp only [Option.some.injEq] at h; subst h; exact .npFloat x
    · cases h
  | .npBool _, _, h => by simp [encode] at h
  | .other, _, h => by simp [encode] at h

lemma encodeList_back (np : Bool) : ∀ (l : List Py) (js : List Json), encodeList np l = some js →
    List.Forall₂ Back l (decodeList js)
  | [], js, h => by simp only [encodeList, Option.some.injEq] at h; subst h; exact .nil
  | v :: l, js, h => by
    simp only [encodeList, Option.bind_eq_some_iff, Option.map_eq_some_iff] at h
    obtain ⟨j, hj, js', hl, rfl⟩ := h
    simp only [decodeList]
    exact .cons (encode_back np v j hj) (encodeList_back np l js' hl)

lemma encodeDict_back (np : Bool) : ∀ (l : List (String × Py)) (js : List (String × Json)),
    encodeDict np l = some js → ∃ vs, List.Forall₂ Back (l.map (·.2)) vs ∧
      decodeDict js = (l.map (·.1)).zip vs
  | [], js, h => by
    simp only [encodeDict, Option.some.injEq] at h; subst h
    exact ⟨[], .nil, rfl⟩
  | (k, v) :: l, js, h => by
    simp only [encodeDict, Option.bind_eq_some_iff, Option.map_eq_some_iff] at h
    obtain ⟨j, hj, js', hl, rfl⟩ := h
    obtain ⟨vs, h1, h2⟩ := encodeDict_back np l js' hl
    refine ⟨decode j :: vs, .cons (encode_back np v j hj) h1, ?_⟩
    simp only [decodeDict, h2, List.map_cons, List.zip_cons_cons]

end

/-- **C143**, reading: whatever is written, with the encoder or without, is read back as expected: arrays
and tuples as lists, numpy numbers as numbers, classes as their printed names. -/
theorem C143_back (np : Bool) (v : Py) (j : Json) (h : encode np v = some j) : Back v (decode j) :=
  encode_back np v j h

/-! ## What can be written -/

mutual

lemma encode_some (np : Bool) : ∀ v : Py,
    (∀ u, Inside u v → ¬ Unknown u ∧ (np = false → ¬ Foreign u)) → ∃ j, encode np v = some j
  | .none, _ => ⟨_, rfl⟩
  | .bool _, _ => ⟨_, rfl⟩
  | .int _, _ => ⟨_, rfl⟩
  | .float _, _ => ⟨_, rfl⟩
  | .str _, _ => ⟨_, rfl⟩
  | .list l, h => by
    obtain ⟨js, hj⟩ := encodeList_some np l fun v hv u hu => h u (.list l v hv hu)
    exact ⟨.arr js, by simp [encode, hj]⟩
  | .tuple l, h => by
    obtain ⟨js, hj⟩ := encodeList_some np l fun v hv u hu => h u (.tuple l v hv hu)
    exact ⟨.arr js, by simp [encode, hj]⟩
  | .dict l, h => by
    obtain ⟨js, hj⟩ := encodeDict_some np l fun k v hv u hu => h u (.dict l k v hv hu)
    exact ⟨.obj js, by simp [encode, hj]⟩
  | .array data, h => by
    obtain ⟨j, hj⟩ := encode_some np data fun u hu => h u (.array data hu)
    cases np with
    | false => exact absurd trivial ((h _ .self).2 rfl)
    | true => exact ⟨j, by simpa [encode] using hj⟩
  | .type name, h => by
    cases np with
    | false => exact absurd trivial ((h _ .self).2 rfl)
    | true => exact ⟨_, by simp [encode]; rfl⟩
  | .npInt n, h => by
    cases np with
    | false => exact absurd trivial ((h _ .self).2 rfl)
    | true => exact ⟨_, by simp [encode]; rfl⟩
  | .npFloat x, h => by
    cases np with
    | false => exact absurd trivial ((h _ .self).2 rfl)
    | true => exact ⟨_, by simp [encode]; rfl⟩
  | .npBool _, h => absurd trivial (h _ .self).1
  | .other, h => absurd trivial (h _ .self).1

lemma encodeList_some (np : Bool) : ∀ l : List Py,
    (∀ v ∈ l, ∀ u, Inside u v → ¬ Unknown u ∧ (np = false → ¬ Foreign u)) →
    ∃ js, encodeList np l = some js
  | [], _ => ⟨_, rfl⟩
  | v :: l, h => by
    obtain ⟨j, hj⟩ := encode_some np v (h v (by simp))
    obtain ⟨js, hl⟩ := encodeList_some np l fun w hw => h w (by simp [hw])
    exact ⟨j :: js, by simp [encodeList, hj, hl]⟩

lemma encodeDict_some (np : Bool) : ∀ l : List (String × Py),
    (∀ k v, (k, v) ∈ l → ∀ u, Inside u v → ¬ Unknown u ∧ (np = false → ¬ Foreign u)) →
    ∃ js, encodeDict np l = some js
  | [], _ => ⟨_, rfl⟩
  | (k, v) :: l, h => by
    obtain ⟨j, hj⟩ := encode_some np v (h k v (by simp))
    obtain ⟨js, hl⟩ := encodeDict_some np l fun k' w hw => h k' w (by simp [hw])
    exact ⟨(k, j) :: js, by simp [encodeDict, hj, hl]⟩

end

lemma encodeList_mem (np : Bool) (l : List Py) (js : List Json) (h : encodeList np l = some js) :
    ∀ v ∈ l, ∃ j, encode np v = some j := by
  induction l generalizing js with
  | nil => simp
  | cons w l ih =>
    simp only [encodeList, Option.bind_eq_some_iff, Option.map_eq_some_iff] at h
    obtain ⟨j, hj, js', hl, -⟩ := h
    intro v hv
    rcases List.mem_cons.1 hv with rfl | hv
    · exact ⟨j, hj⟩
    · exact ih js' hl v hv

lemma encodeDict_mem (np : Bool) (l : List (String × Py)) (js : List (String × Json))
    (h : encodeDict np l = some js) : ∀ k v, (k, v) ∈ l → ∃ j, encode np v = some j := by
  induction l generalizing js with
  | nil => simp
  | cons w l ih =>
    obtain ⟨k', w⟩ := w
    simp only [encodeDict, Option.bind_eq_some_iff, Option.map_eq_some_iff] at h
    obtain ⟨j, hj, js', hl, -⟩ := h
    intro k v hv
    rcases List.mem_cons.1 hv with hkv | hv
    · cases hkv; exact ⟨j, hj⟩
    · exact ih js' hl k v hv

/-- What is inside something that can be written can be written, unless numpy objects are not
supported. -/
lemma encode_inside (np : Bool) (u v : Py) (hin : Inside u v) :
    ∀ j, encode np v = some j → ∃ j', encode np u = some j' := by
  induction hin with
  | self => exact fun j hj => ⟨j, hj⟩
  | list l v hv _ ih =>
    intro j hj
    simp only [encode, Option.map_eq_some_iff] at hj
    obtain ⟨js, hjs, -⟩ := hj
    obtain ⟨j', hj'⟩ := encodeList_mem np l js hjs v hv
    exact ih j' hj'
  | tuple l v hv _ ih =>
    intro j hj
    simp only [encode, Option.map_eq_some_iff] at hj
    obtain ⟨js, hjs, -⟩ := hj
    obtain ⟨j', hj'⟩ := encodeList_mem np l js hjs v hv
    exact ih j' hj'
  | dict l k v hv _ ih =>
    intro j hj
    simp only [encode, Option.map_eq_some_iff] at hj
    obtain ⟨js, hjs, -⟩ := hj
    obtain ⟨j', hj'⟩ := encodeDict_mem np l js hjs k v hv
    exact ih j' hj'
  | array data _ ih =>
    intro j hj
    simp only [encode] at hj
    split at hj
    · exact ih j hj
    · cases hj

/-- **C143**, writing with the encoder fails exactly when the value contains, at some depth, a numpy truth
value or an object that is neither an array, nor a class, nor a numpy number. -/
theorem C143_encoder (v : Py) : encode true v = Option.none ↔ ∃ u, Inside u v ∧ Unknown u := by
  constructor
  · intro h
    by_contra hc
    push Not at hc
    obtain ⟨j, hj⟩ := encode_some true v fun u hu => ⟨hc u hu, by simp⟩
    rw [h] at hj; cases hj
  · rintro ⟨u, hu, hb⟩
    cases hv : encode true v with
    | none => rfl
    | some j =>
      obtain ⟨j', hj'⟩ := encode_inside true u v hu j hv
      cases u <;> first | exact False.elim hb | (simp [encode] at hj')

/-- **C143**, writing without the encoder fails exactly when the value contains, at some depth, an object
of numpy, a class or an unknown object. -/
theorem C143_dumps (v : Py) : encode false v = Option.none ↔ ∃ u, Inside u v ∧ Foreign u := by
  constructor
  · intro h
    by_contra hc
    push Not at hc
    obtain ⟨j, hj⟩ := encode_some false v fun u hu => ⟨fun hb => hc u hu (by
      cases u <;> simp [Unknown, Foreign] at hb ⊢), fun _ => hc u hu⟩
    rw [h] at hj; cases hj
  · rintro ⟨u, hu, hb⟩
    cases hv : encode false v with
    | none => rfl
    | some j =>
      obtain ⟨j', hj'⟩ := encode_inside false u v hu j hv
      cases u <;> first | exact False.elim hb | (simp [encode] at hj')

/-! ## Native values -/

mutual

lemma encode_plain (np : Bool) : ∀ v : Py, Native v → ∃ j, encode np v = some j ∧ decode j = v
  | .none, _ => ⟨_, rfl, by simp [decode]⟩
  | .bool _, _ => ⟨_, rfl, by simp [decode]⟩
  | .int _, _ => ⟨_, rfl, by simp [decode]⟩
  | .float _, _ => ⟨_, rfl, by simp [decode]⟩
  | .str _, _ => ⟨_, rfl, by simp [decode]⟩
  | .list l, h => by
    have h' : ∀ v ∈ l, Native v := by cases h; assumption
    obtain ⟨js, hj, hd⟩ := encodeList_plain np l h'
    exact ⟨.arr js, by simp [encode, hj], by simp [decode, hd]⟩
  | .tuple l, h => by cases h
  | .dict l, h => by
    have h' : ∀ k v, (k, v) ∈ l → Native v := by cases h; assumption
    obtain ⟨js, hj, hd⟩ := encodeDict_plain np l h'
    exact ⟨.obj js, by simp [encode, hj], by simp [decode, hd]⟩
  | .array data, h => by cases h
  | .type name, h => by cases h
  | .npInt n, h => by cases h
  | .npFloat x, h => by cases h
  | .npBool _, h => by cases h
  | .other, h => by cases h

lemma encodeList_plain (np : Bool) : ∀ l : List Py, (∀ v ∈ l, Native v) →
    ∃ js, encodeList np l = some js ∧ decodeList js = l
  | [], _ => ⟨_, rfl, by simp [decodeList]⟩
  | v :: l, h => by
    obtain ⟨j, hj, hd⟩ := encode_plain np v (h v (by simp))
    obtain ⟨js, hl, hdl⟩ := encodeList_plain np l fun w hw => h w (by simp [hw])
    exact ⟨j :: js, by simp [encodeList, hj, hl], by simp [decodeList, hd, hdl]⟩

lemma encodeDict_plain (np : Bool) : ∀ l : List (String × Py), (∀ k v, (k, v) ∈ l → Native v) →
    ∃ js, encodeDict np l = some js ∧ decodeDict js = l
  | [], _ => ⟨_, rfl, by simp [decodeDict]⟩
  | (k, v) :: l, h => by
    obtain ⟨j, hj, hd⟩ := encode_plain np v (h k v (by simp))
    obtain ⟨js, hl, hdl⟩ := encodeDict_plain np l fun k' w hw => h k' w (by simp [hw])
    exact ⟨(k, j) :: js, by simp [encodeDict, hj, hl], by simp [decodeDict, hd, hdl]⟩

end

/-- **C143**, round trip (partial: without arrays and classes, see `C143_lost`, `C143_dtype_refuted`): values of the language itself, nested to any depth, can be written with and without
the encoder, and are read back unchanged. -/
theorem C143_roundtrip_partial (np : Bool) (v : Py) (h : Native v) :
    ∃ j, encode np v = some j ∧ decode j = v := encode_plain np v h

/-! ## Configurations -/

/-- The values of a configuration (`Val`) as Python values; `np.sctypeDict[name]` is the class
`numpy.name` (config.py:259-261). -/
def Val.py : Val → Py
  | .none => .none
  | .str s => .str s
  | .num x => .int x
  | .list l => .list (l.map .int)
  | .array l => .array (.list (l.map .int))
  | .dtype s => .type ("numpy." ++ s)

/-- The items of a namespace with the attributes `keys`. -/
def items (keys : List String) (ns : Namespace) : List (String × Py) :=
  keys.filterMap fun k => (ns k).map fun v => (k, v.py)

/-- `vars(config)` of a rectified configuration (config.py:249-265): the attributes and the bounds. -/
def configVars (keys : List String) (out bounds : Namespace) : Py :=
  .dict (items keys out ++ [("bounds_kwargs", .dict (items boundsFields bounds))])

lemma items_mem (keys : List String) (ns : Namespace) (k : String) (v : Val) (hk : k ∈ keys)
    (hv : ns k = some v) : (k, v.py) ∈ items keys ns := by
  simp only [items, List.mem_filterMap]
  exact ⟨k, hk, by simp [hv]⟩

/-- The samples file never holds a configuration with a data type option: `json.dumps(vars(config))` in
`write_to_disk` raises.  The same holds if an option is a list. -/
theorem C143_lost (join : String → String → String) (expand : String → String) (types : List String)
    (keys : List String) (ns out b : Namespace) (hk : keys.Nodup)
    (hkeys : ∀ k, k ∈ keys ↔ ns k ≠ Option.none) (hdir : storeDir ns = Option.none)
    (h : rectify join expand types keys ns = some (out, b))
    (k : String) (hopt : (∃ s, DtypeName k ∧ ns k = some (.str s)) ∨
      (∃ l, ¬ DtypeName k ∧ ns k = some (.list l))) :
    encode false (configVars keys out b) = Option.none := by
  obtain ⟨-, -, h3, -, h5, -⟩ := C77_values join expand types keys ns out b hk hkeys hdir h
  rw [C143_dumps]
  have hkin : k ∈ keys := (hkeys k).2 (by rcases hopt with ⟨s, _, hs⟩ | ⟨l, _, hl⟩ <;> simp [*])
  rcases hopt with ⟨s, hd, hs⟩ | ⟨l, hd, hl⟩
  · refine ⟨.type ("numpy." ++ s), .dict _ k _ ?_ .self, trivial⟩
    exact List.mem_append_left _ (items_mem keys out k (.dtype s) hkin (h5 k s hd hs).2)
  · refine ⟨.array (.list (l.map .int)), .dict _ k _ ?_ .self, trivial⟩
    exact List.mem_append_left _ (items_mem keys out k (.array l) hkin (h3 k l hd hl))

lemma py_known (v : Val) (u : Py) (h : Inside u v.py) : ¬ Unknown u := by
  have hi : ∀ (l : List Int) (w : Py), Inside w (.list (l.map .int)) → ¬ Unknown w := by
    intro l w hw
    cases hw with
    | self => exact id
    | list _ v hv hin =>
      obtain ⟨n, -, rfl⟩ := List.mem_map.1 hv
      cases hin
      exact id
  cases v with
  | none => cases h; exact id
  | str s => cases h; exact id
  | num x => cases h; exact id
  | list l => exact hi l u h
  | array l =>
    cases h with
    | self => exact id
    | array _ h => exact hi l u h
  | dtype s => cases h; exact id

/-- With the encoder every configuration can be written. -/
theorem C143_written (keys : List String) (out b : Namespace) :
    ∃ j, encode true (configVars keys out b) = some j := by
  have hitems : ∀ (ks : List String) (ns : Namespace) (k : String) (v u : Py), (k, v) ∈ items ks ns →
      Inside u v → ¬ Unknown u := by
    intro ks ns k v u hm hin
    simp only [items, List.mem_filterMap, Option.map_eq_some_iff] at hm
    obtain ⟨k', -, v', -, he⟩ := hm
    cases he
    exact py_known v' u hin
  cases hv : encode true (configVars keys out b) with
  | some j => exact ⟨j, rfl⟩
  | none =>
    exfalso
    obtain ⟨u, hu, hb⟩ := (C143_encoder _).1 hv
    cases hu with
    | self => exact hb
    | dict _ k v hm hin =>
      rcases List.mem_append.1 hm with hm | hm
      · exact hitems _ _ _ _ _ hm hin hb
      · cases List.mem_singleton.1 hm
        cases hin with
        | self => exact hb
        | dict _ k' v' hm' hin' => exact hitems _ _ _ _ _ hm' hin' hb

/-- A data type option comes back as the printed name of the class, which `rectify_config` refuses: no
name of a data type looks like that. -/
theorem C143_dtype_refuted (expand : String → String) (types : List String) (s : String)
    (ht : ∀ t ∈ types, ¬ "<".toList <+: t.toList) :
    (encode true (Val.dtype s).py).map decode = some (.str ("<class 'numpy." ++ s ++ "'>")) ∧
    rectifyOne expand types "pix_dtype" (.str ("<class 'numpy." ++ s ++ "'>")) = Option.none := by
  constructor
  · simp only [Val.py, encode, if_true, Option.map_some, decode]
    congr 2
  · have hd : isDtype "pix_dtype" = true := by decide
    simp only [rectifyOne, hd, if_true]
    rw [if_neg]
    intro hm
    apply ht _ hm
    simp [String.toList_append]

/-- A configuration with one data type option and one list: it is lost by `write_to_disk`, written with the
encoder, and read back with a list and a string. -/
theorem C143_witness :
    rectify (fun a b => a ++ "/" ++ b) id ["float32"] ["pix_dtype", "n_pix"]
      (fun k => if k = "pix_dtype" then some (.str "float32") else if k = "n_pix" then some (.list [1, 2])
        else Option.none) ≠ Option.none ∧
    encode false (.dict [("pix_dtype", .type "numpy.float32"), ("n_pix", .array (.list [.int 1, .int 2]))]) =
      Option.none ∧
    (encode true (.dict [("pix_dtype", .type "numpy.float32"),
      ("n_pix", .array (.list [.int 1, .int 2]))])).map decode =
      some (.dict [("pix_dtype", .str "<class 'numpy.float32'>"), ("n_pix", .list [.int 1, .int 2])]) ∧
    encode true (.list [.npBool true]) = Option.none := by
  refine ⟨?_, ?_, ?_, ?_⟩
  · decide
  · simp [encode, encodeDict]
  · simp [encode, encodeDict, encodeList, decode, decodeDict, decodeList]
  · simp [encode, encodeList]

end Forcepho.Config
