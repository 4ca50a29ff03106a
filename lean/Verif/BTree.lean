import Verif.Basic
import Mathlib.Data.List.Basic
import Mathlib.Data.List.Pairwise

/-!
# Ordered maps and sets

`BTreeMap`/`BTreeSet` of the Rust standard library as strictly sorted lists.  Rust compares arrays, vectors and tuples
lexicographically, a proper prefix being smaller, and `None < Some(_)`; the instances below follow that.
-/

set_option autoImplicit false

namespace Verif

/-- A decidable strict total order. -/
class BOrd (α : Type) where
  lt : α → α → Bool
  ltSelf : ∀ a, lt a a = false
  ltTrans : ∀ a b c, lt a b = true → lt b c = true → lt a c = true
  ltTri : ∀ a b, lt a b = false → lt b a = false → a = b

namespace BOrd

instance : BOrd Byte where
  lt a b := decide (a.val < b.val)
  ltSelf a := by simp
  ltTrans a b c h1 h2 := by simp at *; omega
  ltTri a b h1 h2 := by simp at h1 h2; exact Fin.ext (by omega)

/-- Lexicographic order on lists. -/
def ltList {α : Type} [BOrd α] : List α → List α → Bool
  | [], [] => false
  | [], _ :: _ => true
  | _ :: _, [] => false
  | a :: as, b :: bs => if lt a b then true else if lt b a then false else ltList as bs

theorem ltListSelf {α : Type} [BOrd α] : ∀ l : List α, ltList l l = false
  | [] => rfl
  | a :: as => by simp [ltList, ltSelf, ltListSelf as]

theorem ltList_tri {α : Type} [BOrd α] : ∀ a b : List α, ltList a b = false → ltList b a = false → a = b
  | [], [], _, _ => rfl
  | [], _ :: _, h, _ => by simp [ltList] at h
  | _ :: _, [], _, h => by simp [ltList] at h
  | a :: as, b :: bs, h1, h2 => by
    simp only [ltList] at h1 h2
    cases hab : lt a b
    · cases hba : lt b a
      · simp only [hab, hba, Bool.false_eq_true, if_false] at h1 h2
        rw [ltTri a b hab hba, ltList_tri as bs h1 h2]
      · simp [hab, hba] at h2
    · simp [hab] at h1

theorem ltAsymm {α : Type} [BOrd α] {a b : α} (h : lt a b = true) : lt b a = false := by
  by_contra h'
  have := ltTrans a b a h (by simpa using h')
  rw [ltSelf] at this
  simp at this

theorem neLt {α : Type} [BOrd α] {a b : α} (h : lt a b = true) : a ≠ b := by
  rintro rfl
  rw [ltSelf] at h
  simp at h

theorem ltList_trans {α : Type} [BOrd α] : ∀ a b c : List α, ltList a b = true → ltList b c = true → ltList a c = true
  | [], [], _, h, _ => by simp [ltList] at h
  | [], _ :: _, [], _, h => by simp [ltList] at h
  | [], _ :: _, _ :: _, _, _ => rfl
  | _ :: _, [], _, h, _ => by simp [ltList] at h
  | _ :: _, _ :: _, [], _, h => by simp [ltList] at h
  | a :: as, b :: bs, c :: cs, h1, h2 => by
    simp only [ltList] at h1 h2 ⊢
    cases hab : lt a b
    · cases hba : lt b a
      · have e := ltTri a b hab hba
        subst e
        cases hac : lt a c
        · cases hca : lt c a
          · simp only [hab, hac, hca, Bool.false_eq_true, if_false] at h1 h2 ⊢
            exact ltList_trans as bs cs h1 h2
          · simp [hac, hca] at h2
        · simp
      · simp [hab, hba] at h1
    · cases hbc : lt b c
      · cases hcb : lt c b
        · have e := ltTri b c hbc hcb
          subst e
          simp [hab]
        · simp [hbc, hcb] at h2
      · simp [ltTrans a b c hab hbc]

instance {α : Type} [BOrd α] : BOrd (List α) where
  lt := ltList
  ltSelf := ltListSelf
  ltTrans := ltList_trans
  ltTri := ltList_tri

instance {n : ℕ} : BOrd (Bytes n) where
  lt a b := lt a.1 b.1
  ltSelf a := ltSelf a.1
  ltTrans a b c := ltTrans a.1 b.1 c.1
  ltTri a b h1 h2 := Subtype.ext (ltTri a.1 b.1 h1 h2)

instance {α β : Type} [BOrd α] [BOrd β] : BOrd (α × β) where
  lt a b := if lt a.1 b.1 then true else if lt b.1 a.1 then false else lt a.2 b.2
  ltSelf a := by simp [ltSelf]
  ltTrans a b c h1 h2 := by
    obtain ⟨a1, a2⟩ := a
    obtain ⟨b1, b2⟩ := b
    obtain ⟨c1, c2⟩ := c
    simp only at h1 h2 ⊢
    cases hab : lt a1 b1
    · cases hba : lt b1 a1
      · have e := ltTri a1 b1 hab hba
        subst e
        cases hac : lt a1 c1
        · cases hca : lt c1 a1
          · simp only [hab, hac, hca, Bool.false_eq_true, if_false] at h1 h2 ⊢
            exact ltTrans a2 b2 c2 h1 h2
          · simp [hac, hca] at h2
        · simp
      · simp [hab, hba] at h1
    · cases hbc : lt b1 c1
      · cases hcb : lt c1 b1
        · have e := ltTri b1 c1 hbc hcb
          subst e
          simp [hab]
        · simp [hbc, hcb] at h2
      · simp [ltTrans a1 b1 c1 hab hbc]
  ltTri a b h1 h2 := by
    obtain ⟨a1, a2⟩ := a
    obtain ⟨b1, b2⟩ := b
    simp only at h1 h2
    cases hab : lt a1 b1
    · cases hba : lt b1 a1
      · simp only [hab, hba, Bool.false_eq_true, if_false] at h1 h2
        rw [ltTri a1 b1 hab hba, ltTri a2 b2 h1 h2]
      · simp [hab, hba] at h2
    · simp [hab] at h1

instance {α : Type} [BOrd α] : BOrd (Option α) where
  lt
    | none, none => false
    | none, some _ => true
    | some _, none => false
    | some a, some b => lt a b
  ltSelf a := by cases a <;> simp [ltSelf]
  ltTrans a b c h1 h2 := by
    cases a <;> cases b <;> cases c <;> simp at *
    exact ltTrans _ _ _ h1 h2
  ltTri a b h1 h2 := by
    cases a <;> cases b <;> simp at *
    exact ltTri _ _ h1 h2

end BOrd

open BOrd

/-- Strictly ascending. -/
def Ascending {α : Type} [BOrd α] (l : List α) : Prop := l.Pairwise (fun a b => lt a b = true)

theorem Ascending.ext {α : Type} [BOrd α] : ∀ {l l' : List α}, Ascending l → Ascending l' → (∀ x, x ∈ l ↔ x ∈ l') → l = l'
  | [], [], _, _, _ => rfl
  | [], b :: _, _, _, h => by have := (h b).2 (by simp); simp at this
  | a :: _, [], _, _, h => by have := (h a).1 (by simp); simp at this
  | a :: as, b :: bs, h1, h2, h => by
    have p1 := List.pairwise_cons.1 h1
    have p2 := List.pairwise_cons.1 h2
    have e : a = b := by
      have ha := (h a).1 (by simp)
      have hb := (h b).2 (by simp)
      rcases List.mem_cons.1 ha with e | ha
      · exact e
      rcases List.mem_cons.1 hb with e | hb
      · exact e.symm
      have x1 := p1.1 b hb
      have x2 := p2.1 a ha
      rw [ltAsymm x1] at x2
      simp at x2
    subst e
    congr 1
    refine Ascending.ext p1.2 p2.2 (fun x => ?_)
    constructor
    · intro hx
      rcases List.mem_cons.1 ((h x).1 (by simp [hx])) with e | h'
      · subst e; exact absurd rfl (neLt (p1.1 _ hx))
      · exact h'
    · intro hx
      rcases List.mem_cons.1 ((h x).2 (by simp [hx])) with e | h'
      · subst e; exact absurd rfl (neLt (p2.1 _ hx))
      · exact h'

theorem Ascending.nodup {α : Type} [BOrd α] {l : List α} (h : Ascending l) : l.Nodup :=
  List.Pairwise.imp (fun hab => neLt hab) h

/-! ### Sets -/

/-- `BTreeSet<T>`. -/
abbrev BSet (α : Type) := List α

namespace BSet
variable {α : Type} [BOrd α]

/-- `BTreeSet::insert`. -/
def insert (x : α) : BSet α → BSet α
  | [] => [x]
  | y :: ys => if lt x y then x :: y :: ys else if lt y x then y :: insert x ys else y :: ys

theorem mem_insert (x y : α) : ∀ l : BSet α, y ∈ insert x l ↔ y = x ∨ y ∈ l
  | [] => by simp [insert]
  | z :: zs => by
    simp only [insert]
    cases h1 : lt x z
    · cases h2 : lt z x
      · have e := ltTri x z h1 h2
        subst e
        simp
      · simp only [Bool.false_eq_true, if_false, if_true, List.mem_cons, mem_insert x y zs]
        tauto
    · simp

theorem asc_insert (x : α) : ∀ {l : BSet α}, Ascending l → Ascending (insert x l)
  | [], _ => by simp [insert, Ascending]
  | z :: zs, h => by
    have p := List.pairwise_cons.1 h
    simp only [insert]
    cases h1 : lt x z
    · cases h2 : lt z x
      · simpa using h
      · simp only [Bool.false_eq_true, if_false, if_true]
        refine List.pairwise_cons.2 ⟨fun y hy => ?_, asc_insert x p.2⟩
        rcases (mem_insert x y zs).1 hy with rfl | hy
        · exact h2
        · exact p.1 y hy
    · simp only [if_true]
      refine List.pairwise_cons.2 ⟨fun y hy => ?_, h⟩
      rcases List.mem_cons.1 hy with rfl | hy
      · exact h1
      · exact ltTrans _ _ _ h1 (p.1 y hy)

/-- Collecting an iterator into a set. -/
def ofList (l : List α) : BSet α := l.foldl (fun s x => insert x s) []

theorem mem_foldl (x : α) : ∀ (l : List α) (s : BSet α), x ∈ l.foldl (fun s x => insert x s) s ↔ x ∈ l ∨ x ∈ s
  | [], s => by simp
  | y :: ys, s => by
    rw [List.foldl_cons, mem_foldl x ys, mem_insert, List.mem_cons]
    tauto

theorem asc_foldl : ∀ (l : List α) {s : BSet α}, Ascending s → Ascending (l.foldl (fun s x => insert x s) s)
  | [], _, h => h
  | y :: ys, _, h => by
    rw [List.foldl_cons]
    exact asc_foldl ys (asc_insert y h)

theorem mem_ofList (x : α) (l : List α) : x ∈ ofList l ↔ x ∈ l := by
  rw [ofList, mem_foldl]; simp

theorem asc_ofList (l : List α) : Ascending (ofList l) := asc_foldl l List.Pairwise.nil

end BSet

/-! ### Maps -/

/-- `BTreeMap<K, V>`. -/
abbrev BMap (α β : Type) := List (α × β)

namespace BMap
variable {α β : Type} [BOrd α]

/-- Keys in ascending order. -/
def Sorted (m : BMap α β) : Prop := Ascending (m.map Prod.fst)

/-- `BTreeMap::insert` (the returned old value is not used by the code). -/
def insert (k : α) (v : β) : BMap α β → BMap α β
  | [] => [(k, v)]
  | (k', v') :: r => if lt k k' then (k, v) :: (k', v') :: r else if lt k' k then (k', v') :: insert k v r else (k, v) :: r

/-- `BTreeMap::get`. -/
def get (k : α) : BMap α β → Option β
  | [] => none
  | (k', v) :: r => if lt k k' then get k r else if lt k' k then get k r else some v

theorem get_eq_some_iff {k : α} {v : β} : ∀ {m : BMap α β}, Sorted m → (get k m = some v ↔ (k, v) ∈ m)
  | [], _ => by simp [get]
  | (k', v') :: r, h => by
    have p := List.pairwise_cons.1 h
    have ih := get_eq_some_iff (k := k) (v := v) (m := r) p.2
    simp only [get, List.mem_cons, Prod.mk.injEq]
    cases h1 : lt k k'
    · cases h2 : lt k' k
      · have e := ltTri k k' h1 h2
        subst e
        simp only [Bool.false_eq_true, if_false, Option.some.injEq, true_and]
        constructor
        · intro e; exact Or.inl e.symm
        · rintro (e | hm)
          · exact e.symm
          · have := p.1 k (List.mem_map.2 ⟨_, hm, rfl⟩)
            rw [ltSelf] at this
            simp at this
      · simp only [Bool.false_eq_true, if_false, if_true, ih]
        constructor
        · exact Or.inr
        · rintro (⟨e, _⟩ | hm)
          · subst e; rw [ltSelf] at h2; simp at h2
          · exact hm
    · simp only [if_true, ih]
      constructor
      · exact Or.inr
      · rintro (⟨e, _⟩ | hm)
        · subst e; rw [ltSelf] at h1; simp at h1
        · exact hm

theorem mem_keys_insert (k x : α) (v : β) : ∀ (m : BMap α β), x ∈ (insert k v m).map Prod.fst ↔ x = k ∨ x ∈ m.map Prod.fst
  | [] => by simp [insert]
  | (k', v') :: r => by
    have ih := mem_keys_insert k x v r
    simp only [insert]
    cases h1 : lt k k'
    · cases h2 : lt k' k
      · have e := ltTri k k' h1 h2
        subst e
        simp
      · simp only [Bool.false_eq_true, if_false, if_true, List.map_cons, List.mem_cons, ih]
        tauto
    · simp

theorem sorted_insert (k : α) (v : β) : ∀ {m : BMap α β}, Sorted m → Sorted (insert k v m)
  | [], _ => by simp [insert, Sorted, Ascending]
  | (k', v') :: r, h => by
    have p := List.pairwise_cons.1 h
    simp only [insert]
    cases h1 : lt k k'
    · cases h2 : lt k' k
      · have e := ltTri k k' h1 h2
        subst e
        exact h
      · simp only [Bool.false_eq_true, if_false, if_true]
        refine List.pairwise_cons.2 ⟨fun y hy => ?_, sorted_insert k v (m := r) p.2⟩
        rcases (mem_keys_insert k y v r).1 hy with rfl | hy
        · exact h2
        · exact p.1 y hy
    · simp only [if_true]
      refine List.pairwise_cons.2 ⟨fun y hy => ?_, h⟩
      rcases List.mem_cons.1 hy with rfl | hy
      · exact h1
      · exact ltTrans _ _ _ h1 (p.1 y hy)

theorem get_eq_none_iff {k : α} : ∀ {m : BMap α β}, get k m = none ↔ k ∉ m.map Prod.fst
  | [] => by simp [get]
  | (k', v') :: r => by
    have ih := get_eq_none_iff (k := k) (m := r)
    simp only [get, List.map_cons, List.mem_cons, not_or]
    cases h1 : lt k k'
    · cases h2 : lt k' k
      · have e := ltTri k k' h1 h2
        subst e
        simp
      · simp only [Bool.false_eq_true, if_false, if_true, ih]
        exact ⟨fun h => ⟨(neLt h2).symm, h⟩, fun h => h.2⟩
    · simp only [if_true, ih]
      exact ⟨fun h => ⟨neLt h1, h⟩, fun h => h.2⟩

theorem get_insert [DecidableEq α] (k x : α) (v : β) : ∀ {m : BMap α β}, Sorted m →
    get x (insert k v m) = if x = k then some v else get x m
  | [], _ => by
    simp only [insert, get]
    by_cases hx : x = k
    · subst hx; simp [ltSelf]
    · rw [if_neg hx]
      cases h1 : lt x k
      · cases h2 : lt k x
        · exact absurd (ltTri _ _ h1 h2) hx
        · simp
      · simp
  | (k', v') :: r, h => by
    have p := List.pairwise_cons.1 h
    have ih := get_insert k x v (m := r) p.2
    simp only [insert]
    cases h1 : lt k k'
    · cases h2 : lt k' k
      · have e := ltTri k k' h1 h2
        subst e
        simp only [Bool.false_eq_true, if_false, get]
        by_cases hx : x = k
        · subst hx; simp [ltSelf]
        · rw [if_neg hx]
          cases h3 : lt x k
          · cases h4 : lt k x
            · exact absurd (ltTri _ _ h3 h4) hx
            · simp
          · simp
      · simp only [Bool.false_eq_true, if_false, if_true, get, ih]
        by_cases hx : x = k
        · subst hx; simp [h1, h2]
        · simp [hx]
    · simp only [if_true]
      rw [show get x ((k, v) :: (k', v') :: r) = if lt x k then get x ((k', v') :: r) else
        if lt k x then get x ((k', v') :: r) else some v from rfl]
      by_cases hx : x = k
      · subst hx; simp [ltSelf]
      · rw [if_neg hx]
        cases h3 : lt x k
        · cases h4 : lt k x
          · exact absurd (ltTri _ _ h3 h4) hx
          · simp
        · simp

theorem ext {m m' : BMap α β} (h : Sorted m) (h' : Sorted m') (he : ∀ k, get k m = get k m') : m = m' := by
  induction m generalizing m' with
  | nil =>
    cases m' with
    | nil => rfl
    | cons a r =>
      have := (get_eq_some_iff (k := a.1) (v := a.2) h').2 (by simp)
      rw [← he] at this
      simp [get] at this
  | cons a r ih =>
    cases m' with
    | nil =>
      have := (get_eq_some_iff (k := a.1) (v := a.2) h).2 (by simp)
      rw [he] at this
      simp [get] at this
    | cons b s =>
      have p := List.pairwise_cons.1 h
      have p' := List.pairwise_cons.1 h'
      have ha := (get_eq_some_iff (k := a.1) (v := a.2) h).2 (by simp)
      have hb := (get_eq_some_iff (k := b.1) (v := b.2) h').2 (by simp)
      rw [he, get_eq_some_iff h'] at ha
      rw [← he, get_eq_some_iff h] at hb
      have hab : a = b := by
        rcases List.mem_cons.1 ha with e | ha
        · exact e
        rcases List.mem_cons.1 hb with e | hb
        · exact e.symm
        have x1 := p.1 b.1 (List.mem_map.2 ⟨_, hb, rfl⟩)
        have x2 := p'.1 a.1 (List.mem_map.2 ⟨_, ha, rfl⟩)
        rw [ltAsymm x1] at x2
        simp at x2
      subst hab
      congr 1
      refine ih p.2 p'.2 (fun k => ?_)
      have hk := he k
      obtain ⟨a1, a2⟩ := a
      by_cases hka : k = a1
      · subst hka
        have n1 : get k r = none := get_eq_none_iff.2 (fun hm => by
          have := p.1 k hm; simp [ltSelf] at this)
        have n2 : get k s = none := get_eq_none_iff.2 (fun hm => by
          have := p'.1 k hm; simp [ltSelf] at this)
        rw [n1, n2]
      · simp only [get] at hk
        cases h1 : lt k a1
        · cases h2 : lt a1 k
          · exact absurd (ltTri _ _ h1 h2) hka
          · simpa [h1, h2] using hk
        · simpa [h1] using hk

theorem mem_keys_iff {k : α} {m : BMap α β} : k ∈ m.map Prod.fst ↔ get k m ≠ none := by
  rw [ne_eq, get_eq_none_iff, not_not]

end BMap

end Verif
