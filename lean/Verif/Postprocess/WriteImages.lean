import Verif.Postprocess.ImageProps

/-! # C65 (shapes, shared defaults, cutouts) and C82 (written images) -/

set_option autoImplicit false
set_option linter.unusedSectionVars false

namespace Forcepho.Postprocess

variable {V : Type}

/-! ## Shapes of new images -/

/-- The shape known for an exposure, if any. -/
def known (h : Headers) (e : List String) : Option (Nat × Nat) :=
  match header h e with
  | .ok s => s
  | .error _ => none

/-- **C65, shapes.**  A new image has the shape of its own header if that is known, otherwise the shape
of the last header read for another new image before it, and the requested shape only when no header
was read at all. -/
theorem C65_shape (h : Headers) (nan : V) (f : File V) (name : String) (st st' : Fill V)
    (hd : f.exposures.Nodup) (hf : Consistent f name) (hr : fillImages h nan f name st = (st', none))
    (pre post : List (List String)) (e : List String) (hes : f.exposures = pre ++ e :: post)
    (hnew : st.images e = none) :
    ∃ im, st'.images e = some im ∧ (im.nx, im.ny) =
      ((((pre ++ [e]).filter fun x => (st.images x).isNone).filterMap (known h)).getLast?).getD st.imshape := by
  unfold fillImages at hr
  rw [hes] at hr hd
  clear hes
  induction pre generalizing st with
  | nil =>
    rw [List.nil_append] at hr hd
    rw [fillLoop] at hr
    cases hc : create h nan e st with
    | error x => rw [hc] at hr; simp at hr
    | ok st1 =>
      rw [hc] at hr
      dsimp only at hr
      cases hw : write f name e st1 with
      | error x => rw [hw] at hr; simp at hr
      | ok st2 =>
        rw [hw] at hr
        dsimp only at hr
        obtain ⟨c1, im1, c2, -, -, c4⟩ := create_spec h nan e st st1 hc
        obtain ⟨-, -, -, c, a, im, im', -, -, w5, w6, w7, w8, -⟩ := write_spec f name hf e st1 st2 hw
        obtain rfl : im1 = im := by rw [c2] at w5; simpa using w5
        obtain ⟨s, k1, k2, -, -⟩ := c4 hnew
        have hk : known h e = s := by unfold known; rw [k1]
        have hlast := (C65_written h nan ⟨post, f.coords, f.dataset⟩ name st2 st'
          (List.nodup_cons.mp hd).2 hf (by
            unfold fillImages
            have : ∀ (es : List (List String)) (s : Fill V),
                fillLoop h nan ⟨post, f.coords, f.dataset⟩ name es s = fillLoop h nan f name es s := by
              intro es
              induction es with
              | nil => intro s; rfl
              | cons e es ih => intro s; simp only [fillLoop, ih]; rfl
            rw [this]; exact hr)).1 e (List.nodup_cons.mp hd).1
        refine ⟨im', by rw [hlast.1, w6], ?_⟩
        rw [w7, w8, k2]
        cases s with
        | none => simp [hnew, hk]
        | some s => simp [hnew, hk]
  | cons e0 pre ih =>
    rw [List.cons_append] at hr hd
    rw [fillLoop] at hr
    cases hc : create h nan e0 st with
    | error x => rw [hc] at hr; simp at hr
    | ok st1 =>
      rw [hc] at hr
      dsimp only at hr
      cases hw : write f name e0 st1 with
      | error x => rw [hw] at hr; simp at hr
      | ok st2 =>
        rw [hw] at hr
        dsimp only at hr
        obtain ⟨hne, hnd⟩ := List.nodup_cons.mp hd
        obtain ⟨c1, im1, c2, -, c3, c4⟩ := create_spec h nan e0 st st1 hc
        obtain ⟨w1, -, w3, -⟩ := write_spec f name hf e0 st1 st2 hw
        have hsame : ∀ x ∈ pre ++ e :: post, st2.images x = st.images x := by
          intro x hx
          have : x ≠ e0 := fun h => hne (h ▸ hx)
          rw [w1 x this, (c1 x this).1]
        obtain ⟨im, h1, h2⟩ := ih st2 hnd hr (by rw [hsame e (by simp)]; exact hnew)
        refine ⟨im, h1, ?_⟩
        rw [h2, List.cons_append]
        have hfil : ((pre ++ [e]).filter fun x => (st2.images x).isNone) =
            (pre ++ [e]).filter fun x => (st.images x).isNone := by
          refine List.filter_congr ?_
          intro x hx
          rw [hsame x (by
            rcases List.mem_append.mp hx with hx | hx
            · simp [hx]
            · simp [List.mem_singleton.mp hx])]
        rw [hfil, w3]
        cases hi : st.images e0 with
        | some old =>
          rw [(c3 old hi).2]
          simp [hi]
        | none =>
          obtain ⟨s, k1, -, k3, -⟩ := c4 hi
          have hk : known h e0 = s := by unfold known; rw [k1]
          rw [k3, List.filter_cons_of_pos (by simp [hi])]
          cases s with
          | none =>
            have e1 : ∀ l : List (List String), (e0 :: l).filterMap (known h) = l.filterMap (known h) :=
              fun l => by rw [List.filterMap_cons, hk]
            rw [e1]
            rfl
          | some s =>
            have e1 : ∀ l : List (List String), (e0 :: l).filterMap (known h) = s :: l.filterMap (known h) :=
              fun l => by rw [List.filterMap_cons, hk]
            rw [e1, List.getLast?_cons]
            rfl

/-- **C65, default shape.**  Without any header every new image has 2048 pixels on a side. -/
theorem C65_default_shape (h : Headers) (nan : V) (f : File V) (name : String) (kept st' : Fill V)
    (hd : f.exposures.Nodup) (hf : Consistent f name) (hm : h.metastore = none) (hdisk : ∀ e, h.disk e = none)
    (hr : fillDefault h nan f name kept = (st', none)) (e : List String) (he : e ∈ f.exposures)
    (hnew : kept.images e = none) : ∃ im, st'.images e = some im ∧ im.nx = 2048 ∧ im.ny = 2048 := by
  obtain ⟨pre, post, hsplit⟩ := List.append_of_mem he
  obtain ⟨im, h1, h2⟩ := C65_shape h nan f name _ st' hd hf hr pre post e hsplit hnew
  have hk : ∀ l : List (List String), l.filterMap (known h) = [] := by
    intro l
    rw [List.filterMap_eq_nil_iff]
    intro x _
    unfold known header
    rw [hm]; simp [hdisk]
  rw [hk] at h2
  exact ⟨im, h1, congrArg Prod.fst h2, congrArg Prod.snd h2⟩

/-- Two exposures without pixels; only the first is on disk. -/
def twoFile : File Int :=
  ⟨[["x"], ["y"]], fun _ => some [], fun _ _ => some []⟩

/-- **C65, shape leak.**  The requested shape is not used for an exposure without a header when an
exposure with a header came before it. -/
theorem C65_shape_refuted : ∃ (st' : Fill Int) (im : Image Int),
    fillImages ⟨none, fun e => if e = ["x"] then some (4, 5) else none⟩ 0 twoFile "data" noImages = (st', none) ∧
    st'.images ["y"] = some im ∧ (im.nx, im.ny) = (4, 5) ∧ (im.nx, im.ny) ≠ (noImages : Fill Int).imshape :=
  ⟨_, _, rfl, rfl, rfl, by decide⟩

/-- **C65, shared defaults.**  A call that leaves out the dictionaries returns, besides its own
exposures, every image of earlier such calls. -/
theorem C65_shared (h : Headers) (nan : V) (f1 f2 : File V) (name : String) (kept1 kept2 : Fill V)
    (hd1 : f1.exposures.Nodup) (hf1 : Consistent f1 name) (hd2 : f2.exposures.Nodup) (hf2 : Consistent f2 name)
    (h1 : fillDefault h nan f1 name noImages = (kept1, none))
    (h2 : fillDefault h nan f2 name kept1 = (kept2, none)) (e : List String) (he1 : e ∈ f1.exposures)
    (he2 : e ∉ f2.exposures) : ∃ im, kept1.images e = some im ∧ kept2.images e = some im := by
  obtain ⟨im, c, a, -, -, k, -⟩ := (C65_written h nan f1 name _ kept1 hd1 hf1 h1).2 e he1
  refine ⟨im, k, ?_⟩
  rw [((C65_written h nan f2 name _ kept2 hd2 hf2 h2).1 e he2).1, ← k]

/-! ## Cutouts -/

lemma lastAt_cons {α : Type} (P : α → Prop) (x : α) (l : List α) (k : Nat) :
    LastAt P (x :: l) (k + 1) ↔ LastAt P l k := by
  unfold LastAt
  constructor
  · rintro ⟨⟨p, h1, h2⟩, h3⟩
    exact ⟨⟨p, by simpa using h1, h2⟩, fun k' p' hk hp => h3 (k' + 1) p' (by omega) (by simpa using hp)⟩
  · rintro ⟨⟨p, h1, h2⟩, h3⟩
    refine ⟨⟨p, by simpa using h1, h2⟩, ?_⟩
    intro k' p' hk hp
    cases k' with
    | zero => omega
    | succ k' => exact h3 k' p' (by omega) (by simpa using hp)

open Classical in
lemma pixelValue_cons (P : ℚ × ℚ → Prop) (p : ℚ × ℚ) (v : V) (c : List (ℚ × ℚ)) (a : List V) (old now : V) :
    PixelValue P (p :: c) (v :: a) old now ↔ PixelValue P c a (if P p then v else old) now := by
  constructor
  · rintro (⟨k, w, h1, h2, h3⟩ | ⟨h1, h2⟩)
    · cases k with
      | zero =>
        obtain ⟨⟨q, hq, hP⟩, hlast⟩ := h1
        obtain rfl : p = q := by simpa using hq
        right
        refine ⟨?_, ?_⟩
        · intro q hq' hPq
          obtain ⟨k, hk⟩ := List.getElem?_of_mem hq'
          exact hlast (k + 1) q (by omega) (by simpa using hk) hPq
        · rw [if_pos hP, h3]; simpa using h2.symm
      | succ k =>
        exact Or.inl ⟨k, w, (lastAt_cons P p c k).mp h1, by simpa using h2, h3⟩
    · right
      exact ⟨fun q hq => h1 q (List.mem_cons_of_mem _ hq), by rw [if_neg (h1 p (by simp)), h2]⟩
  · rintro (⟨k, w, h1, h2, h3⟩ | ⟨h1, h2⟩)
    · exact Or.inl ⟨k + 1, w, (lastAt_cons P p c k).mpr h1, by simpa using h2, h3⟩
    · by_cases hP : P p
      · left
        rw [if_pos hP] at h2
        refine ⟨0, v, ⟨⟨p, rfl, hP⟩, ?_⟩, rfl, h2⟩
        intro k' p' hk hp
        cases k' with
        | zero => omega
        | succ k' => exact h1 p' (List.mem_of_getElem? (by simpa using hp))
      · right
        rw [if_neg hP] at h2
        refine ⟨?_, h2⟩
        intro q hq
        rcases List.mem_cons.mp hq with rfl | hq
        · exact hP
        · exact h1 q hq

lemma pixelValue_filter (P : ℚ × ℚ → Prop) (q : (ℚ × ℚ) × V → Bool) (l : List ((ℚ × ℚ) × V))
    (hq : ∀ t ∈ l, P t.1 → q t = true) (old now : V) :
    PixelValue P ((l.filter q).map (·.1)) ((l.filter q).map (·.2)) old now ↔
      PixelValue P (l.map (·.1)) (l.map (·.2)) old now := by
  classical
  induction l generalizing old with
  | nil => rfl
  | cons t l ih =>
    have ih' := ih fun t ht => hq t (List.mem_cons_of_mem _ ht)
    rw [List.map_cons, List.map_cons, pixelValue_cons]
    by_cases ht : q t = true
    · rw [List.filter_cons_of_pos ht, List.map_cons, List.map_cons, pixelValue_cons, ih']
    · have hP : ¬ P t.1 := fun h => ht (hq t (by simp) h)
      rw [List.filter_cons_of_neg ht, if_neg hP, ih']

lemma foldl_min_spec (xs : List ℚ) (x : ℚ) :
    xs.foldl min x ∈ x :: xs ∧ ∀ y ∈ x :: xs, xs.foldl min x ≤ y := by
  induction xs generalizing x with
  | nil => simp
  | cons a xs ih =>
    rw [List.foldl_cons]
    obtain ⟨h1, h2⟩ := ih (min x a)
    have hm := h2 (min x a) (by simp)
    refine ⟨?_, ?_⟩
    · rcases List.mem_cons.mp h1 with h1 | h1
      · rw [h1]
        rcases min_choice x a with h | h <;> simp [h]
      · simp [h1]
    · intro y hy
      rcases List.mem_cons.mp hy with rfl | hy
      · exact hm.trans (min_le_left _ _)
      · rcases List.mem_cons.mp hy with rfl | hy
        · exact hm.trans (min_le_right _ _)
        · exact h2 y (List.mem_cons_of_mem _ hy)

lemma foldl_max_spec (xs : List ℚ) (x : ℚ) :
    xs.foldl max x ∈ x :: xs ∧ ∀ y ∈ x :: xs, y ≤ xs.foldl max x := by
  induction xs generalizing x with
  | nil => simp
  | cons a xs ih =>
    rw [List.foldl_cons]
    obtain ⟨h1, h2⟩ := ih (max x a)
    have hm := h2 (max x a) (by simp)
    refine ⟨?_, ?_⟩
    · rcases List.mem_cons.mp h1 with h1 | h1
      · rw [h1]
        rcases max_choice x a with h | h <;> simp [h]
      · simp [h1]
    · intro y hy
      rcases List.mem_cons.mp hy with rfl | hy
      · exact (le_max_left _ _).trans hm
      · rcases List.mem_cons.mp hy with rfl | hy
        · exact (le_max_right _ _).trans hm
        · exact h2 y (List.mem_cons_of_mem _ hy)

lemma minmax_spec (l : List ℚ) (hne : l ≠ []) (hn : ∀ x ∈ l, ∃ n : Nat, x = n) :
    ∃ a b : Nat, minmax l = some ((a : ℚ), (b : ℚ)) ∧ (a : ℚ) ∈ l ∧ (b : ℚ) ∈ l ∧ a ≤ b ∧
      ∀ x ∈ l, (a : ℚ) ≤ x ∧ x ≤ b := by
  cases l with
  | nil => exact absurd rfl hne
  | cons x xs =>
    obtain ⟨h1, h2⟩ := foldl_min_spec xs x
    obtain ⟨h3, h4⟩ := foldl_max_spec xs x
    obtain ⟨a, ha⟩ := hn _ h1
    obtain ⟨b, hb⟩ := hn _ h3
    refine ⟨a, b, by rw [minmax, ha, hb], by rw [← ha]; exact h1, by rw [← hb]; exact h3, ?_, ?_⟩
    · have := h4 _ h1
      rw [ha, hb] at this
      exact_mod_cast this
    · intro y hy
      exact ⟨by rw [← ha]; exact h2 y hy, by rw [← hb]; exact h4 y hy⟩

lemma trunc_half (n : Nat) : trunc ((n : ℚ) + 1 / 2) = n := by
  unfold trunc
  rw [if_pos (by positivity)]
  rw [Int.floor_eq_iff]
  constructor <;> push_cast <;> linarith

/-- The pixel is kept by `populate_image`. -/
def Kept {V : Type} (t : (ℚ × ℚ) × V) : Prop := 0 ≤ t.1.1 ∧ 0 ≤ t.1.2

/-- **C65, cutouts.**  When the non-negative coordinates are integers, the cutout is the bounding box
of the pixels with non-negative coordinates (each side is attained), its corners are half a pixel
outside, every pixel of it has the value of the last stored pixel there, and not-a-number if there is
none.  Padding has no effect.  Without a pixel with non-negative coordinates `ValueError` is raised. -/
theorem C65_cutout (nan : V) (pixels : List ((ℚ × ℚ) × V))
    (hn : ∀ t ∈ pixels, Kept t → ∃ a b : Nat, t.1 = ((a : ℚ), (b : ℚ))) :
    ((∃ t ∈ pixels, Kept t) → ∃ (im : Image V) (x0 y0 : Nat), 0 < im.nx ∧ 0 < im.ny ∧
      populateImage nan pixels = .ok (im, ((x0 : ℚ) - 1 / 2, (y0 : ℚ) - 1 / 2),
        ((x0 : ℚ) + im.nx - 1 / 2, (y0 : ℚ) + im.ny - 1 / 2)) ∧
      (∀ t ∈ pixels, Kept t → (x0 : ℚ) ≤ t.1.1 ∧ t.1.1 + 1 ≤ x0 + im.nx ∧ (y0 : ℚ) ≤ t.1.2 ∧ t.1.2 + 1 ≤ y0 + im.ny) ∧
      (∃ t ∈ pixels, Kept t ∧ t.1.1 = x0) ∧ (∃ t ∈ pixels, Kept t ∧ t.1.1 + 1 = x0 + im.nx) ∧
      (∃ t ∈ pixels, Kept t ∧ t.1.2 = y0) ∧ (∃ t ∈ pixels, Kept t ∧ t.1.2 + 1 = y0 + im.ny) ∧
      ∀ i j, i < im.nx → j < im.ny →
        PixelValue (At (x0 + i) (y0 + j)) (pixels.map (·.1)) (pixels.map (·.2)) nan (im.pix i j)) ∧
    ((∀ t ∈ pixels, ¬ Kept t) → populateImage nan pixels = .error .value) := by
  set g := pixels.filter fun p => 0 ≤ p.1.1 ∧ 0 ≤ p.1.2 with hg
  have hmem : ∀ t, t ∈ g ↔ t ∈ pixels ∧ Kept t := by
    intro t; rw [hg, List.mem_filter]; simp [Kept]
  constructor
  · rintro ⟨t0, ht0, hk0⟩
    have hgn : g ≠ [] := List.ne_nil_of_mem ((hmem t0).mpr ⟨ht0, hk0⟩)
    obtain ⟨x0, x1, hx, hx0, hx1, hxle, hxs⟩ := minmax_spec (g.map (·.1.1)) (by simpa using hgn) (by
      intro x hx
      obtain ⟨t, ht, rfl⟩ := List.mem_map.mp hx
      obtain ⟨a, b, h⟩ := hn t ((hmem t).mp ht).1 ((hmem t).mp ht).2
      exact ⟨a, by rw [h]⟩)
    obtain ⟨y0, y1, hy, hy0, hy1, hyle, hys⟩ := minmax_spec (g.map (·.1.2)) (by simpa using hgn) (by
      intro x hx
      obtain ⟨t, ht, rfl⟩ := List.mem_map.mp hx
      obtain ⟨a, b, h⟩ := hn t ((hmem t).mp ht).1 ((hmem t).mp ht).2
      exact ⟨b, by rw [h]⟩)
    have hsize : ∀ a b : Nat, a ≤ b → (trunc ((b : ℚ) + 1 / 2 - ((a : ℚ) - 1 / 2))).toNat = b - a + 1 := by
      intro a b hab
      have : ((b : ℚ) + 1 / 2 - ((a : ℚ) - 1 / 2)) = ((b - a + 1 : Nat) : ℚ) := by
        push_cast [Nat.cast_sub hab]; ring
      rw [this, trunc_natCast]; simp
    set im0 := blank nan (x1 - x0 + 1, y1 - y0 + 1) with him0
    have hcoord : ∀ t ∈ g, ∃ a b : Nat, t.1 = ((a : ℚ), (b : ℚ)) ∧ x0 ≤ a ∧ a ≤ x1 ∧ y0 ≤ b ∧ b ≤ y1 := by
      intro t ht
      obtain ⟨a, b, h⟩ := hn t ((hmem t).mp ht).1 ((hmem t).mp ht).2
      have h1 := hxs t.1.1 (List.mem_map_of_mem ht)
      have h2 := hys t.1.2 (List.mem_map_of_mem ht)
      rw [h] at h1 h2
      dsimp only at h1 h2
      refine ⟨a, b, h, ?_, ?_, ?_, ?_⟩
      · exact_mod_cast h1.1
      · exact_mod_cast h1.2
      · exact_mod_cast h2.1
      · exact_mod_cast h2.2
    have hidx : ∀ a b : Nat, a ≤ b → trunc ((b : ℚ) - ((a : ℚ) - 1 / 2)) = ((b - a : Nat) : Int) := by
      intro a b hab
      have : ((b : ℚ) - ((a : ℚ) - 1 / 2)) = ((b - a : Nat) : ℚ) + 1 / 2 := by
        push_cast [Nat.cast_sub hab]; ring
      rw [this, trunc_half]
    have hlist : (g.map fun p => (trunc (p.1.1 - ((x0 : ℚ) - 1 / 2)), trunc (p.1.2 - ((y0 : ℚ) - 1 / 2)))) =
        (g.map (·.1)).map fun p => (trunc (p.1 - ((x0 : ℚ) - 1 / 2)), trunc (p.2 - ((y0 : ℚ) - 1 / 2))) := by
      rw [List.map_map]; rfl
    obtain ⟨im, him⟩ := assign_ok im0
      (g.map fun p => (trunc (p.1.1 - ((x0 : ℚ) - 1 / 2)), trunc (p.1.2 - ((y0 : ℚ) - 1 / 2)))) (g.map (·.2))
      (by simp) (by
        intro p hp
        obtain ⟨t, ht, rfl⟩ := List.mem_map.mp hp
        obtain ⟨a, b, h, h1, h2, h3, h4⟩ := hcoord t ht
        rw [h]; simp only [hidx x0 a h1, him0, blank]; omega) (by
        intro p hp
        obtain ⟨t, ht, rfl⟩ := List.mem_map.mp hp
        obtain ⟨a, b, h, h1, h2, h3, h4⟩ := hcoord t ht
        rw [h]; simp only [hidx y0 b h3, him0, blank]; omega)
    have hspec := assign_spec im0 im (g.map (·.1)) ((x0 : ℚ) - 1 / 2, (y0 : ℚ) - 1 / 2) (g.map (·.2)) (by simp)
      (by rw [← hlist]; exact him)
    have hnx : im.nx = x1 - x0 + 1 := hspec.1
    have hny : im.ny = y1 - y0 + 1 := hspec.2.1
    have cx : (im.nx : ℚ) = x1 - x0 + 1 := by rw [hnx]; push_cast [Nat.cast_sub hxle]; ring
    have cy : (im.ny : ℚ) = y1 - y0 + 1 := by rw [hny]; push_cast [Nat.cast_sub hyle]; ring
    refine ⟨im, x0, y0, by omega, by omega, ?_, ?_, ?_, ?_, ?_, ?_, ?_⟩
    · unfold populateImage
      simp only [← hg, hx, hy, hsize x0 x1 hxle, hsize y0 y1 hyle]
      rw [him]
      dsimp only
      congr 4
      · rw [cx]; ring
      · rw [cy]; ring
    · intro t ht hk
      have hm := (hmem t).mpr ⟨ht, hk⟩
      have h1 := hxs t.1.1 (List.mem_map_of_mem hm)
      have h2 := hys t.1.2 (List.mem_map_of_mem hm)
      rw [cx, cy]
      exact ⟨h1.1, by linarith [h1.2], h2.1, by linarith [h2.2]⟩
    · obtain ⟨t, ht, h⟩ := List.mem_map.mp hx0
      exact ⟨t, ((hmem t).mp ht).1, ((hmem t).mp ht).2, h⟩
    · obtain ⟨t, ht, h⟩ := List.mem_map.mp hx1
      exact ⟨t, ((hmem t).mp ht).1, ((hmem t).mp ht).2, by rw [h, cx]; ring⟩
    · obtain ⟨t, ht, h⟩ := List.mem_map.mp hy0
      exact ⟨t, ((hmem t).mp ht).1, ((hmem t).mp ht).2, h⟩
    · obtain ⟨t, ht, h⟩ := List.mem_map.mp hy1
      exact ⟨t, ((hmem t).mp ht).1, ((hmem t).mp ht).2, by rw [h, cy]; ring⟩
    · intro i j hi hj
      refine (pixelValue_filter (At (x0 + i) (y0 + j)) (fun p => 0 ≤ p.1.1 ∧ 0 ≤ p.1.2) pixels ?_ nan
        (im.pix i j)).mp ?_
      · intro t _ h
        unfold At at h
        rw [h]
        simp only [decide_eq_true_eq]
        exact ⟨by positivity, by positivity⟩
      · rw [← hg]
        have h2 := hspec.2.2 i j (by rw [← hspec.1]; exact hi) (by rw [← hspec.2.1]; exact hj)
        refine pixelValue_congr ?_ h2
        intro p hp
        obtain ⟨t, ht, rfl⟩ := List.mem_map.mp hp
        obtain ⟨a, b, h, h1, h2, h3, h4⟩ := hcoord t ht
        rw [h]
        unfold Hit AxisHit At
        simp only [hidx x0 a h1, hidx y0 b h3, Prod.mk.injEq, Nat.cast_inj, him0, blank]
        rw [hnx] at hi
        rw [hny] at hj
        omega
  · intro hno
    have hg0 : g = [] := by
      rw [List.eq_nil_iff_forall_not_mem]
      intro t ht
      exact hno t ((hmem t).mp ht).1 ((hmem t).mp ht).2
    unfold populateImage
    simp only [← hg, hg0]
    rfl

/-- The hypotheses are met by one pixel and one padding pixel. -/
example : ∀ t ∈ ([((3, 4), 7), ((-1, -1), 0)] : List ((ℚ × ℚ) × Int)), Kept t →
    ∃ a b : Nat, t.1 = ((a : ℚ), (b : ℚ)) := by
  intro t ht hk
  rcases List.mem_cons.mp ht with rfl | ht
  · exact ⟨3, 4, by norm_num⟩
  · obtain rfl : t = ((-1, -1), 0) := by simpa using ht
    exact absurd hk.1 (by norm_num)

/-! ## C82: the written images -/

/-- Shape of an image, if it is there. -/
def shapeOf (st : Fill V) (e : List String) : Option (Nat × Nat) := (st.images e).map fun im => (im.nx, im.ny)

lemma fillLoop_shapes (h : Headers) (nan : V) (f : File V) (n1 n2 : String) (hf1 : Consistent f n1)
    (hf2 : Consistent f n2) (es : List (List String)) (s1 s2 t1 t2 : Fill V)
    (hs : ∀ e, shapeOf s1 e = shapeOf s2 e) (hi : s1.imshape = s2.imshape)
    (h1 : fillLoop h nan f n1 es s1 = (t1, none)) (h2 : fillLoop h nan f n2 es s2 = (t2, none)) :
    ∀ e, shapeOf t1 e = shapeOf t2 e := by
  induction es generalizing s1 s2 with
  | nil =>
    obtain rfl : s1 = t1 := by simpa [fillLoop] using h1
    obtain rfl : s2 = t2 := by simpa [fillLoop] using h2
    exact hs
  | cons e es ih =>
    rw [fillLoop] at h1 h2
    cases hc1 : create h nan e s1 with
    | error x => rw [hc1] at h1; simp at h1
    | ok s1' =>
    cases hc2 : create h nan e s2 with
    | error x => rw [hc2] at h2; simp at h2
    | ok s2' =>
    rw [hc1] at h1
    rw [hc2] at h2
    dsimp only at h1 h2
    cases hw1 : write f n1 e s1' with
    | error x => rw [hw1] at h1; simp at h1
    | ok s1'' =>
    cases hw2 : write f n2 e s2' with
    | error x => rw [hw2] at h2; simp at h2
    | ok s2'' =>
    rw [hw1] at h1
    rw [hw2] at h2
    dsimp only at h1 h2
    obtain ⟨a1, i1, a2, -, a3, a4⟩ := create_spec h nan e s1 s1' hc1
    obtain ⟨b1, j1, b2, -, b3, b4⟩ := create_spec h nan e s2 s2' hc2
    obtain ⟨w1, -, w2, -, -, i2, i3, -, -, w3, w4, w5, w6, -⟩ := write_spec f n1 hf1 e s1' s1'' hw1
    obtain ⟨v1, -, v2, -, -, j2, j3, -, -, v3, v4, v5, v6, -⟩ := write_spec f n2 hf2 e s2' s2'' hw2
    obtain rfl : i1 = i2 := by rw [a2] at w3; simpa using w3
    obtain rfl : j1 = j2 := by rw [b2] at v3; simpa using v3
    have hse := hs e
    have hshape : (i1.nx, i1.ny) = (j1.nx, j1.ny) ∧ s1'.imshape = s2'.imshape := by
      cases hx : s1.images e with
      | some o1 =>
        cases hy : s2.images e with
        | none => simp [shapeOf, hx, hy] at hse
        | some o2 =>
          rw [(a3 o1 hx).1, (b3 o2 hy).1, (a3 o1 hx).2, (b3 o2 hy).2]
          refine ⟨by simpa [shapeOf, hx, hy] using hse, hi⟩
      | none =>
        cases hy : s2.images e with
        | some o2 => simp [shapeOf, hx, hy] at hse
        | none =>
          obtain ⟨x, k1, k2, k3, -⟩ := a4 hx
          obtain ⟨y, l1, l2, l3, -⟩ := b4 hy
          obtain rfl : x = y := by rw [k1] at l1; injection l1
          rw [k2, l2, k3, l3, hi]
          exact ⟨rfl, rfl⟩
    refine ih s1'' s2'' ?_ (by rw [w2, v2]; exact hshape.2) h1 h2
    intro e'
    by_cases he : e' = e
    · subst he
      unfold shapeOf
      rw [w4, v4]
      simp only [Option.map_some, w5, w6, v5, v6, hshape.1]
    · have := hs e'
      unfold shapeOf at this ⊢
      rw [w1 e' he, v1 e' he, (a1 e' he).1, (b1 e' he).1]
      exact this

/-- A recorded header has the shape of the image. -/
def HeaderOk (st : Fill V) : Prop := ∀ e s, st.headers e = some s → shapeOf st e = some s

lemma fillLoop_header (h : Headers) (nan : V) (f : File V) (n1 : String) (hf1 : Consistent f n1)
    (es : List (List String)) (s1 t1 : Fill V) (hs : HeaderOk s1)
    (h1 : fillLoop h nan f n1 es s1 = (t1, none)) : HeaderOk t1 := by
  induction es generalizing s1 with
  | nil =>
    obtain rfl : s1 = t1 := by simpa [fillLoop] using h1
    exact hs
  | cons e es ih =>
    rw [fillLoop] at h1
    cases hc1 : create h nan e s1 with
    | error x => rw [hc1] at h1; simp at h1
    | ok s1' =>
    rw [hc1] at h1
    dsimp only at h1
    cases hw1 : write f n1 e s1' with
    | error x => rw [hw1] at h1; simp at h1
    | ok s1'' =>
    rw [hw1] at h1
    dsimp only at h1
    obtain ⟨a1, i1, a2, -, a3, a4⟩ := create_spec h nan e s1 s1' hc1
    obtain ⟨w1, w0, w2, -, -, i2, i3, -, -, w3, w4, w5, w6, -⟩ := write_spec f n1 hf1 e s1' s1'' hw1
    obtain rfl : i1 = i2 := by rw [a2] at w3; simpa using w3
    refine ih s1'' ?_ h1
    intro e' s hes
    rw [w0] at hes
    by_cases he : e' = e
    · subst he
      have hsh : shapeOf s1'' e' = some (i1.nx, i1.ny) := by
        unfold shapeOf; rw [w4]; simp [w5, w6]
      rw [hsh]
      cases hx : s1.images e' with
      | some o =>
        have := hs e' s (by rw [← (a3 o hx).2]; exact hes)
        rw [(a3 o hx).1]
        simpa [shapeOf, hx] using this
      | none =>
        obtain ⟨x, -, k2, -, k4⟩ := a4 hx
        rw [k4] at hes
        cases x with
        | none =>
          have := hs e' s (by simpa using hes)
          simp [shapeOf, hx] at this
        | some x =>
          rw [k2]; simpa using hes
    · rw [(a1 e' he).2] at hes
      have := hs e' s hes
      unfold shapeOf at this ⊢
      rw [w1 e' he, (a1 e' he).1]
      exact this

lemma lastAt_unique {α : Type} {P : α → Prop} {l : List α} {k k' : Nat} (h : LastAt P l k) (h' : LastAt P l k') :
    k = k' := by
  obtain ⟨⟨p, h1, h2⟩, h3⟩ := h
  obtain ⟨⟨p', h1', h2'⟩, h3'⟩ := h'
  rcases Nat.lt_trichotomy k k' with h | h | h
  · exact absurd h2' (h3 k' p' h h1')
  · exact h
  · exact absurd h2 (h3' k p h h1)

/-- Residual, data and inverse error of a pixel come from the same stored pixel, the last one that
designates it in the last of the files that has one; or no file has one and all three are
not-a-number. -/
def SamePixel (files : List (File (Option ℝ))) (nx ny : Nat) (e : List String) (i j : Nat)
    (de da ie : Option ℝ) : Prop :=
  (∃ pre f post c k, files = pre ++ f :: post ∧ e ∈ f.exposures ∧ f.coords e = some c ∧
    LastAt (Hit nx ny i j) c k ∧
    (∃ a, f.dataset e "residual" = some a ∧ a[k]? = some de) ∧
    (∃ a, f.dataset e "data" = some a ∧ a[k]? = some da) ∧
    (∃ a, f.dataset e "ierr" = some a ∧ a[k]? = some ie) ∧
    ∀ g ∈ post, e ∈ g.exposures → ∀ c', g.coords e = some c' → ∀ p ∈ c', ¬ Hit nx ny i j p) ∨
  ((∀ g ∈ files, e ∈ g.exposures → ∀ c', g.coords e = some c' → ∀ p ∈ c', ¬ Hit nx ny i j p) ∧
    de = none ∧ da = none ∧ ie = none)

/-- The state of the run after the files. -/
structure RunOk (files : List (File (Option ℝ))) (r : Run (Option ℝ)) : Prop where
  shape1 : ∀ e, shapeOf r.deltas e = shapeOf r.datas e
  shape2 : ∀ e, shapeOf r.ierrs e = shapeOf r.datas e
  header : HeaderOk r.datas
  present : ∀ e, (∃ f ∈ files, e ∈ f.exposures) ↔ (r.datas.images e).isSome = true
  pixels : ∀ e de da ie, r.deltas.images e = some de → r.datas.images e = some da →
    r.ierrs.images e = some ie → ∀ i j, i < da.nx → j < da.ny →
    SamePixel files da.nx da.ny e i j (de.pix i j) (da.pix i j) (ie.pix i j)

/-- The files are well formed. -/
def FileOk (f : File (Option ℝ)) : Prop :=
  f.exposures.Nodup ∧ Consistent f "residual" ∧ Consistent f "data" ∧ Consistent f "ierr"

lemma samePixel_snoc_miss (files : List (File (Option ℝ))) (f : File (Option ℝ)) (nx ny : Nat) (e : List String)
    (i j : Nat) (de da ie : Option ℝ) (h : SamePixel files nx ny e i j de da ie)
    (hm : e ∈ f.exposures → ∀ c', f.coords e = some c' → ∀ p ∈ c', ¬ Hit nx ny i j p) :
    SamePixel (files ++ [f]) nx ny e i j de da ie := by
  rcases h with ⟨pre, g, post, c, k, h1, h2, h3, h4, h5, h6, h7, h8⟩ | ⟨h1, h2⟩
  · refine Or.inl ⟨pre, g, post ++ [f], c, k, by rw [h1]; simp, h2, h3, h4, h5, h6, h7, ?_⟩
    intro g' hg'
    rcases List.mem_append.mp hg' with hg' | hg'
    · exact h8 g' hg'
    · obtain rfl := List.mem_singleton.mp hg'
      exact hm
  · refine Or.inr ⟨?_, h2⟩
    intro g' hg'
    rcases List.mem_append.mp hg' with hg' | hg'
    · exact h1 g' hg'
    · obtain rfl := List.mem_singleton.mp hg'
      exact hm

lemma runOk_step (h : Headers) (files : List (File (Option ℝ))) (f : File (Option ℝ)) (hf : FileOk f)
    (r : Run (Option ℝ)) (hr : RunOk files r) (de da ie : Fill (Option ℝ))
    (h1 : fillImages h none f "residual" { r.deltas with imshape := defaultShape } = (de, none))
    (h2 : fillImages h none f "data" { r.datas with imshape := defaultShape } = (da, none))
    (h3 : fillImages h none f "ierr" { r.ierrs with imshape := defaultShape } = (ie, none)) :
    RunOk (files ++ [f]) ⟨de, da, ie⟩ := by
  obtain ⟨hd, hf1, hf2, hf3⟩ := hf
  have q1 := C65_written h none f "residual" _ de hd hf1 h1
  have q2 := C65_written h none f "data" _ da hd hf2 h2
  have q3 := C65_written h none f "ierr" _ ie hd hf3 h3
  have s1 : ∀ e, shapeOf de e = shapeOf da e :=
    fillLoop_shapes h none f _ _ hf1 hf2 f.exposures { r.deltas with imshape := defaultShape }
      { r.datas with imshape := defaultShape } de da (fun e => hr.shape1 e) rfl h1 h2
  have s2 : ∀ e, shapeOf ie e = shapeOf da e :=
    fillLoop_shapes h none f _ _ hf3 hf2 f.exposures { r.ierrs with imshape := defaultShape }
      { r.datas with imshape := defaultShape } ie da (fun e => hr.shape2 e) rfl h3 h2
  refine ⟨s1, s2, fillLoop_header h none f _ hf2 f.exposures { r.datas with imshape := defaultShape } da
    (fun e s h => hr.header e s h) h2, ?_, ?_⟩
  · intro e
    by_cases he : e ∈ f.exposures
    · obtain ⟨im, -, -, -, -, k, -⟩ := q2.2 e he
      constructor
      · intro _; simp only; rw [k]; rfl
      · intro _; exact ⟨f, by simp, he⟩
    · simp only
      rw [(q2.1 e he).1, ← hr.present e]
      constructor
      · rintro ⟨g, hg, hge⟩
        rcases List.mem_append.mp hg with hg | hg
        · exact ⟨g, hg, hge⟩
        · obtain rfl := List.mem_singleton.mp hg
          exact absurd hge he
      · rintro ⟨g, hg, hge⟩
        exact ⟨g, List.mem_append_left _ hg, hge⟩
  · intro e ide ida iie e1 e2 e3 i j hi hj
    simp only at e1 e2 e3
    by_cases he : e ∈ f.exposures
    · obtain ⟨im1, c, a1, k1, k2, k3, k4, k5⟩ := q1.2 e he
      obtain ⟨im2, c2, a2, l1, l2, l3, l4, l5⟩ := q2.2 e he
      obtain ⟨im3, c3, a3, m1, m2, m3, m4, m5⟩ := q3.2 e he
      obtain rfl : ide = im1 := by rw [e1] at k3; simpa using k3
      obtain rfl : ida = im2 := by rw [e2] at l3; simpa using l3
      obtain rfl : iie = im3 := by rw [e3] at m3; simpa using m3
      obtain rfl : c = c2 := by rw [k1] at l1; simpa using l1
      obtain rfl : c = c3 := by rw [k1] at m1; simpa using m1
      have z1 : ide.nx = ida.nx ∧ ide.ny = ida.ny := by
        have := s1 e; simpa [shapeOf, e1, e2] using this
      have z2 : iie.nx = ida.nx ∧ iie.ny = ida.ny := by
        have := s2 e; simpa [shapeOf, e3, e2] using this
      have v1 := k5 i j (by rw [z1.1]; exact hi) (by rw [z1.2]; exact hj)
      have v2 := l5 i j hi hj
      have v3 := m5 i j (by rw [z2.1]; exact hi) (by rw [z2.2]; exact hj)
      rw [z1.1, z1.2] at v1
      rw [z2.1, z2.2] at v3
      rcases v1 with ⟨x1, y1, o1, o2, o3⟩ | ⟨o1, o2⟩
      · rcases v2 with ⟨x2, y2, r1, r2, r3⟩ | ⟨r1, -⟩
        · rcases v3 with ⟨x3, y3, t1, t2, t3⟩ | ⟨t1, -⟩
          · obtain rfl := lastAt_unique o1 r1
            obtain rfl := lastAt_unique o1 t1
            refine Or.inl ⟨files, f, [], c, x1, rfl, he, k1, o1, ⟨a1, k2, by rw [o3]; exact o2⟩,
              ⟨a2, l2, by rw [r3]; exact r2⟩, ⟨a3, m2, by rw [t3]; exact t2⟩, by simp⟩
          · obtain ⟨⟨p, u1, u2⟩, -⟩ := o1
            exact absurd u2 (t1 p (List.mem_of_getElem? u1))
        · obtain ⟨⟨p, u1, u2⟩, -⟩ := o1
          exact absurd u2 (r1 p (List.mem_of_getElem? u1))
      · rcases v2 with ⟨x2, y2, ⟨⟨p, u1, u2⟩, -⟩, -, -⟩ | ⟨-, r2⟩
        · exact absurd u2 (o1 p (List.mem_of_getElem? u1))
        · rcases v3 with ⟨x3, y3, ⟨⟨p, u1, u2⟩, -⟩, -, -⟩ | ⟨-, t2⟩
          · exact absurd u2 (o1 p (List.mem_of_getElem? u1))
          · have hmiss : e ∈ f.exposures → ∀ c', f.coords e = some c' → ∀ p ∈ c', ¬ Hit ida.nx ida.ny i j p := by
              intro _ c' hc'
              obtain rfl : c = c' := by rw [k1] at hc'; simpa using hc'
              exact o1
            refine samePixel_snoc_miss files f _ _ e i j _ _ _ ?_ hmiss
            rw [o2, r2, t2]
            unfold before
            simp only
            cases hx : r.datas.images e with
            | none =>
              have hx1 : r.deltas.images e = none := by
                have := hr.shape1 e; simpa [shapeOf, hx] using this
              have hx2 : r.ierrs.images e = none := by
                have := hr.shape2 e; simpa [shapeOf, hx] using this
              rw [hx1, hx2]
              refine Or.inr ⟨?_, rfl, rfl, rfl⟩
              intro g hg hge
              have := (hr.present e).mp ⟨g, hg, hge⟩
              rw [hx] at this
              simp at this
            | some oda =>
              obtain ⟨ode, hode⟩ : ∃ o, r.deltas.images e = some o := by
                have := hr.shape1 e
                rw [shapeOf, shapeOf, hx] at this
                obtain ⟨o, ho, -⟩ := Option.map_eq_some_iff.mp this
                exact ⟨o, ho⟩
              obtain ⟨oie, hoie⟩ : ∃ o, r.ierrs.images e = some o := by
                have := hr.shape2 e
                rw [shapeOf, shapeOf, hx] at this
                obtain ⟨o, ho, -⟩ := Option.map_eq_some_iff.mp this
                exact ⟨o, ho⟩
              rw [hode, hoie]
              obtain ⟨n1, n2⟩ := l4 oda hx
              rw [n1, n2]
              exact hr.pixels e ode oda oie hode hx hoie i j (by rw [← n1]; exact hi) (by rw [← n2]; exact hj)
    · rw [(q1.1 e he).1] at e1
      rw [(q2.1 e he).1] at e2
      rw [(q3.1 e he).1] at e3
      exact samePixel_snoc_miss files f _ _ e i j _ _ _ (hr.pixels e ide ida iie e1 e2 e3 i j hi hj)
        (fun h => absurd h he)

lemma runOk_start : RunOk [] (⟨noImages, noImages, noImages⟩ : Run (Option ℝ)) := by
  refine ⟨fun _ => rfl, fun _ => rfl, ?_, ?_, ?_⟩
  · intro e s hs; simp [noImages] at hs
  · intro e; simp [noImages]
  · intro e de da ie h; simp [noImages] at h

lemma runOk_all (h : Headers) (done files : List (File (Option ℝ))) (hf : ∀ f ∈ files, FileOk f)
    (r r' : Run (Option ℝ)) (hr : RunOk done r) (hall : fillAll h none files r = .ok r') :
    RunOk (done ++ files) r' := by
  induction files generalizing done r with
  | nil =>
    obtain rfl : r = r' := by simpa [fillAll] using hall
    simpa using hr
  | cons f fs ih =>
    rw [fillAll] at hall
    obtain ⟨de, de2, h1⟩ : ∃ x y, fillImages h none f "residual" { r.deltas with imshape := defaultShape } = (x, y) :=
      ⟨_, _, rfl⟩
    obtain ⟨da, da2, h2⟩ : ∃ x y, fillImages h none f "data" { r.datas with imshape := defaultShape } = (x, y) :=
      ⟨_, _, rfl⟩
    obtain ⟨ie, ie2, h3⟩ : ∃ x y, fillImages h none f "ierr" { r.ierrs with imshape := defaultShape } = (x, y) :=
      ⟨_, _, rfl⟩
    rw [h1] at hall
    cases de2 with
    | some x => simp at hall
    | none =>
    dsimp only at hall
    rw [h2] at hall
    cases da2 with
    | some x => simp at hall
    | none =>
    dsimp only at hall
    rw [h3] at hall
    cases ie2 with
    | some x => simp at hall
    | none =>
    dsimp only at hall
    have := ih (done ++ [f]) (fun f hf' => hf f (List.mem_cons_of_mem _ hf')) ⟨de, da, ie⟩
      (runOk_step h done f (hf f (by simp)) r hr de da ie h1 h2 h3) hall
    simpa using this

/-- **C82, the written images.**  After any number of patches, for every exposure of any of them the
images are written (the header check never fails), in FITS axis order, and at every pixel the data,
residual, model and chi images show one and the same stored pixel: the last one of the last patch
that has it.  Model is data minus residual and chi is residual over uncertainty; all are not-a-number
where no patch has the pixel. -/
theorem C82_images (h : Headers) (files : List (File (Option ℝ))) (hf : ∀ f ∈ files, FileOk f)
    (r : Run (Option ℝ)) (hall : fillAll h none files ⟨noImages, noImages, noImages⟩ = .ok r)
    (e : List String) (he : ∃ f ∈ files, e ∈ f.exposures) :
    ∃ w, writeOne r e = .ok w ∧ w.delta.nx = w.data.nx ∧ w.delta.ny = w.data.ny ∧
      w.model.nx = w.data.nx ∧ w.model.ny = w.data.ny ∧ w.chi.nx = w.data.nx ∧ w.chi.ny = w.data.ny ∧
      ∀ i j, i < w.data.ny → j < w.data.nx → ∃ de da ie,
        SamePixel files w.data.ny w.data.nx e i j de da ie ∧
        w.data.pix j i = da ∧ w.delta.pix j i = de ∧
        w.model.pix j i = (da.bind fun x => de.map fun y => x - y) ∧
        w.chi.pix j i = (de.bind fun y => ie.map fun z => y * z) := by
  have hr := runOk_all h [] files hf _ r runOk_start hall
  rw [List.nil_append] at hr
  obtain ⟨da, hda⟩ := Option.isSome_iff_exists.mp ((hr.present e).mp he)
  obtain ⟨de, hde⟩ : ∃ o, r.deltas.images e = some o := by
    have := hr.shape1 e
    rw [shapeOf, shapeOf, hda] at this
    obtain ⟨o, ho, -⟩ := Option.map_eq_some_iff.mp this
    exact ⟨o, ho⟩
  obtain ⟨ie, hie⟩ : ∃ o, r.ierrs.images e = some o := by
    have := hr.shape2 e
    rw [shapeOf, shapeOf, hda] at this
    obtain ⟨o, ho, -⟩ := Option.map_eq_some_iff.mp this
    exact ⟨o, ho⟩
  have z1 : de.nx = da.nx ∧ de.ny = da.ny := by
    have := hr.shape1 e; simpa [shapeOf, hde, hda] using this
  have hw : writeOne r e = .ok ⟨transpose da, transpose de, transpose (zipImage (· - ·) da de),
      transpose (zipImage (· * ·) de ie)⟩ := by
    unfold writeOne
    rw [hda, hde, hie]
    dsimp only
    cases hh : r.datas.headers e with
    | none => rfl
    | some s =>
      dsimp only
      have := hr.header e s hh
      rw [shapeOf, hda] at this
      simp only [Option.map_some, Option.some.injEq] at this
      rw [if_pos]
      rw [← this]
      exact ⟨rfl, rfl⟩
  refine ⟨_, hw, z1.2, z1.1, rfl, rfl, z1.2, z1.1, ?_⟩
  intro i j hi hj
  exact ⟨de.pix i j, da.pix i j, ie.pix i j, hr.pixels e de da ie hde hda hie i j hi hj, rfl, rfl, rfl, rfl⟩

/-- A run that meets the hypotheses: one patch with one pixel of an exposure of two by two. -/
def oneFile : File (Option ℝ) :=
  ⟨[["F", "a"]], fun e => if e = ["F", "a"] then some [(1, 0)] else none,
    fun e _ => if e = ["F", "a"] then some [none] else none⟩

example : FileOk oneFile ∧ ∃ r, fillAll oneHeader none [oneFile] ⟨noImages, noImages, noImages⟩ = .ok r := by
  have hcon : ∀ n, Consistent oneFile n := by
    intro n e c a hc ha
    unfold oneFile at hc ha
    simp only at hc ha
    split at hc
    · rename_i he
      rw [if_pos he] at ha
      simp at hc ha; simp [← hc, ← ha]
    · simp at hc
  have hex : ∀ name st, (∀ e, (st : Fill (Option ℝ)).images e = none) →
      ∃ st', fillImages oneHeader none oneFile name st = (st', none) := by
    intro name st hst
    obtain ⟨st', h, -⟩ := C65_succeeds (fun b x => if b = "F" ∧ x = "a" then some (3, 2) else none)
      (fun _ => none) none oneFile name st (by decide) (hcon name) (by
        intro e he
        obtain rfl : e = ["F", "a"] := by simpa [oneFile] using he
        refine ⟨"F", "a", 3, 2, [(1, 0)], [none], rfl, by simp, by simp [oneFile], by simp [oneFile], ?_, ?_⟩
        · intro p hp
          exact ⟨1, 0, by omega, by omega, by simpa using hp⟩
        · intro im him; rw [hst] at him; simp at him)
    exact ⟨st', h⟩
  refine ⟨⟨by decide, hcon _, hcon _, hcon _⟩, ?_⟩
  obtain ⟨a, ha⟩ := hex "residual" noImages fun _ => rfl
  obtain ⟨b, hb⟩ := hex "data" noImages fun _ => rfl
  obtain ⟨c, hc⟩ := hex "ierr" noImages fun _ => rfl
  refine ⟨⟨a, b, c⟩, ?_⟩
  have hn : ({ (noImages : Fill (Option ℝ)) with imshape := defaultShape }) = noImages := rfl
  rw [fillAll]
  dsimp only
  rw [hn, ha]
  dsimp only
  rw [hb]
  dsimp only
  rw [hc]
  rfl

end Forcepho.Postprocess
