import Verif.Py.Ast
import Verif.Model.Libxc
import Mathlib.Data.List.Induction
/-!
# Names as numbers
-/
namespace Verif.Lib
open Verif.Py Verif.Model

theorem nameCodeChars_append (l m : List Char) (n : ℕ) : nameCodeChars (l ++ m) n = nameCodeChars m (nameCodeChars l n) := by
  induction l generalizing n with
  | nil => rfl
  | cons c l ih => exact ih _

/-- All characters are proper one-byte characters. -/
def ByteChars (l : List Char) : Prop := ∀ c ∈ l, 0 < c.toNat ∧ c.toNat < 256

theorem nameCodeChars_pos (l : List Char) (h : ByteChars l) (hl : l ≠ []) : 0 < nameCodeChars l 0 := by
  rcases List.eq_nil_or_concat l with rfl | ⟨m, c, rfl⟩
  · exact absurd rfl hl
  · rw [List.concat_eq_append, nameCodeChars_append]
    have := (h c (by simp)).1
    simp only [nameCodeChars]
    omega

theorem nameCodeChars_inj (l m : List Char) (hl : ByteChars l) (hm : ByteChars m) (h : nameCodeChars l 0 = nameCodeChars m 0) : l = m := by
  induction l using List.reverseRecOn generalizing m with
  | nil =>
    by_contra hne
    have := nameCodeChars_pos m hm (Ne.symm hne)
    rw [← h] at this
    simp [nameCodeChars] at this
  | append_singleton l c ih =>
    rcases List.eq_nil_or_concat m with rfl | ⟨m, d, rfl⟩
    · have := nameCodeChars_pos _ hl (by simp)
      rw [h] at this
      simp [nameCodeChars] at this
    · rw [List.concat_eq_append] at h hm ⊢
      rw [nameCodeChars_append, nameCodeChars_append] at h
      simp only [nameCodeChars] at h
      have h1 := (hl c (by simp)).2
      have h2 := (hm d (by simp)).2
      have e1 : c.toNat = d.toNat := by omega
      have e2 : nameCodeChars l 0 = nameCodeChars m 0 := by omega
      rw [ih m (fun x hx => hl x (by simp [hx])) (fun x hx => hm x (by simp [hx])) e2, Char.toNat_inj.1 e1]

theorem nameCode_inj (s t : String) (hs : ByteChars s.toList) (ht : ByteChars t.toList) (h : nameCode s = nameCode t) : s = t :=
  String.toList_inj.1 (nameCodeChars_inj _ _ hs ht h)

theorem byte_start (c : Char) (h : isStart c = true) : 0 < c.toNat ∧ c.toNat < 256 ∧ c ≠ '[' := by
  unfold isStart at h
  simp only [Bool.or_eq_true, Bool.and_eq_true, decide_eq_true_eq, beq_iff_eq] at h
  rcases h with (⟨h1, h2⟩ | ⟨h1, h2⟩) | rfl
  · have h1 : 'a'.toNat ≤ c.toNat := h1
    have h2 : c.toNat ≤ 'z'.toNat := h2
    have e1 : 'a'.toNat = 97 := rfl
    have e2 : 'z'.toNat = 122 := rfl
    refine ⟨by omega, by omega, ?_⟩
    rintro rfl
    have : '['.toNat = 91 := rfl
    omega
  · have h1 : 'A'.toNat ≤ c.toNat := h1
    have h2 : c.toNat ≤ 'Z'.toNat := h2
    have e1 : 'A'.toNat = 65 := rfl
    have e2 : 'Z'.toNat = 90 := rfl
    refine ⟨by omega, by omega, ?_⟩
    rintro rfl
    have : '['.toNat = 91 := rfl
    omega
  · decide

theorem byte_dig (c : Char) (h : Text.isDig c = true) : 0 < c.toNat ∧ c.toNat < 256 ∧ c ≠ '[' := by
  unfold Text.isDig at h
  simp only [Bool.and_eq_true, decide_eq_true_eq] at h
  have h1 : '0'.toNat ≤ c.toNat := h.1
  have h2 : c.toNat ≤ '9'.toNat := h.2
  have e1 : '0'.toNat = 48 := rfl
  have e2 : '9'.toNat = 57 := rfl
  refine ⟨by omega, by omega, ?_⟩
  rintro rfl
  have : '['.toNat = 91 := rfl
  omega

/-- Identifiers consist of one-byte characters and contain no bracket. -/
theorem identifier_chars (s : String) (h : isIdentifier s = true) : ∀ c ∈ s.toList, 0 < c.toNat ∧ c.toNat < 256 ∧ c ≠ '[' := by
  unfold isIdentifier at h
  split at h
  · cases h
  · rename_i c cs e
    rw [Bool.and_eq_true, List.all_eq_true] at h
    intro d hd
    rw [e] at hd
    rcases List.mem_cons.1 hd with rfl | hd
    · exact byte_start _ h.1
    · have := h.2 d hd
      rw [Bool.or_eq_true] at this
      exact this.elim (byte_start d) (byte_dig d)

/-- The text `k[j]`. -/
def elemText (k : String) (j : ℕ) : String := k ++ "[" ++ toString j ++ "]"

theorem elemText_toList (k : String) (j : ℕ) : (elemText k j).toList = k.toList ++ '[' :: (Nat.toDigits 10 j ++ [']']) := by
  unfold elemText
  rw [String.toList_append, String.toList_append, String.toList_append]
  have e1 : ("[".toList : List Char) = ['['] := rfl
  have e2 : ("]".toList : List Char) = [']'] := rfl
  have e3 : (toString j).toList = Nat.toDigits 10 j := Nat.toList_repr
  rw [e1, e2, e3]
  simp

theorem elemText_bytes (k : String) (j : ℕ) (hk : isIdentifier k = true) : ByteChars (elemText k j).toList := by
  rw [elemText_toList]
  intro c hc
  simp only [List.mem_append, List.mem_cons, List.not_mem_nil, or_false] at hc
  rcases hc with hc | rfl | hc | rfl
  · exact ⟨(identifier_chars k hk c hc).1, (identifier_chars k hk c hc).2.1⟩
  · decide
  · have := Nat.isDigit_of_mem_toDigits (by norm_num) (by norm_num) hc
    have h2 := byte_dig c (by
      unfold Char.isDigit at this
      unfold Text.isDig
      simp only [Bool.and_eq_true, decide_eq_true_eq] at this ⊢
      exact ⟨this.1, this.2⟩)
    exact ⟨h2.1, h2.2.1⟩
  · decide

theorem split_at {a b : List Char} {x y : List Char} (ha : '[' ∉ a) (hb : '[' ∉ b) (h : a ++ '[' :: x = b ++ '[' :: y) : a = b ∧ x = y := by
  induction a generalizing b with
  | nil =>
    cases b with
    | nil => simpa using h
    | cons c b =>
      simp only [List.nil_append, List.cons_append, List.cons.injEq] at h
      exact absurd (List.mem_cons.2 (Or.inl h.1)) hb
  | cons c a ih =>
    cases b with
    | nil =>
      simp only [List.nil_append, List.cons_append, List.cons.injEq] at h
      exact absurd (List.mem_cons.2 (Or.inl h.1.symm)) ha
    | cons d b =>
      simp only [List.cons_append, List.cons.injEq] at h
      obtain ⟨h1, h2⟩ := ih (fun hm => ha (List.mem_cons_of_mem _ hm)) (fun hm => hb (List.mem_cons_of_mem _ hm)) h.2
      exact ⟨by rw [h.1, h1], h2⟩

theorem no_bracket (k : String) (hk : isIdentifier k = true) : '[' ∉ k.toList := fun h => (identifier_chars k hk _ h).2.2 rfl

theorem elemText_inj (k k' : String) (j j' : ℕ) (hk : isIdentifier k = true) (hk' : isIdentifier k' = true) (h : elemText k j = elemText k' j') :
    k = k' ∧ j = j' := by
  rw [← String.toList_inj, elemText_toList, elemText_toList] at h
  obtain ⟨h1, h2⟩ := split_at (no_bracket k hk) (no_bracket k' hk') h
  refine ⟨String.toList_inj.1 h1, ?_⟩
  have := List.append_cancel_right h2
  rw [← Nat.ofDigitChars_ten_toDigits (n := j), this, Nat.ofDigitChars_ten_toDigits]

theorem elemText_ne (k k' : String) (j : ℕ) (hk' : isIdentifier k' = true) : elemText k j ≠ k' := by
  intro h
  apply no_bracket k' hk'
  rw [← h, elemText_toList]
  simp

end Verif.Lib
