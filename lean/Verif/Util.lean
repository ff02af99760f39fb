import Mathlib.Data.List.Basic

/-! # List facts shared by several modules -/

set_option autoImplicit false

namespace Forcepho.Util

/-- Entry `i*w + j` of a concatenation of blocks of length `w` is entry `j` of block `i`. -/
lemma flatten_const {α : Type} {w : Nat} (ls : List (List α)) (hw : ∀ l ∈ ls, l.length = w)
    {i j : Nat} {l : List α} (hi : ls[i]? = some l) (hj : j < w) :
    ls.flatten[i * w + j]? = l[j]? := by
  induction ls generalizing i with
  | nil => simp at hi
  | cons x xs ih =>
    have hx : x.length = w := hw x (by simp)
    cases i with
    | zero =>
      simp at hi
      subst hi
      simp only [List.flatten_cons, Nat.zero_mul, Nat.zero_add]
      rw [List.getElem?_append_left (by omega)]
    | succ i =>
      simp only [List.flatten_cons]
      rw [List.getElem?_append_right (by rw [hx, Nat.succ_mul]; omega)]
      have : (i + 1) * w + j - x.length = i * w + j := by rw [hx, Nat.succ_mul]; omega
      rw [this]
      exact ih (fun l hl => hw l (by simp [hl])) (by simpa using hi)

/-- Length of a concatenation of blocks of equal length. -/
lemma length_flatten_const {α : Type} {w : Nat} (ls : List (List α))
    (hw : ∀ l ∈ ls, l.length = w) : ls.flatten.length = ls.length * w := by
  induction ls with
  | nil => simp
  | cons x xs ih =>
    simp only [List.flatten_cons, List.length_append, List.length_cons, Nat.succ_mul]
    rw [hw x (by simp), ih fun l hl => hw l (by simp [hl])]
    omega

end Forcepho.Util
