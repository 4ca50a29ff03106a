import Verif.Vectors.Sha256
import Verif.Bander.Concrete
import Verif.Ipa.Points

/-!
# Evaluation of the model for Bandersnatch

The elements of Bandersnatch are classes of points with coordinates in a prime field.  To evaluate the model on concrete
inputs they are represented by homogeneous coordinates which are natural numbers, with the operations `natOps`.  `natOps_sound`
says that these compute the group operations, so that a run on numbers is a run of the model.
-/

set_option autoImplicit false

namespace Verif.Vectors
open Proof Bander Ipa Wire

abbrev BPt : Type := Pt coeffA coeffD

/-- The transcript of the code: the hash is the digest, read as a little-endian number, reduced
(`/repo/ipa-multipoint/src/transcript.rs:37-53`). -/
noncomputable def shaOracle : Oracle (ZMod r) BElem := ⟨codec, fun m => (leNat (Sha256.hash m) : ZMod r)⟩

/-- Homogeneous coordinates: `x = X / Z`, `y = Y / Z`. -/
structure Tri where
  X : ℕ
  Y : ℕ
  Z : ℕ

open Sha256 (force force_eq)

/-- Continue with the sum, its coordinates evaluated.  `Q` and `d` are `q` and `dN`; written without type classes for speed. -/
def addK {α : Type} (Q d X₁ Y₁ Z₁ X₂ Y₂ Z₂ : ℕ) (k : ℕ → ℕ → ℕ → α) : α :=
  force ((Nat.mul ((((Z₁.mul Z₂).mod Q).mul (((((Z₁.mul Z₂).mod Q).mul ((Z₁.mul Z₂).mod Q)).add
    (Q.sub ((d.mul (((X₁.mul X₂).mul (Y₁.mul Y₂)).mod Q)).mod Q))))).mod Q) ((X₁.mul Y₂).add (X₂.mul Y₁))).mod Q) fun X =>
  force ((Nat.mul ((((Z₁.mul Z₂).mod Q).mul (((((Z₁.mul Z₂).mod Q).mul ((Z₁.mul Z₂).mod Q)).add
    ((d.mul (((X₁.mul X₂).mul (Y₁.mul Y₂)).mod Q)).mod Q)))).mod Q) ((Y₁.mul Y₂).add (Nat.mul 5 (X₁.mul X₂)))).mod Q) fun Y =>
  force ((Nat.mul ((((Z₁.mul Z₂).mod Q).mul ((Z₁.mul Z₂).mod Q)).add (Q.sub ((d.mul (((X₁.mul X₂).mul (Y₁.mul Y₂)).mod Q)).mod Q)))
    ((((Z₁.mul Z₂).mod Q).mul ((Z₁.mul Z₂).mod Q)).add ((d.mul (((X₁.mul X₂).mul (Y₁.mul Y₂)).mod Q)).mod Q))).mod Q) fun Z => k X Y Z

def Tri.add (s t : Tri) : Tri := addK q dN s.X s.Y s.Z t.X t.Y t.Z Tri.mk

theorem addK_eq {α : Type} (s t : Tri) (k : ℕ → ℕ → ℕ → α) :
    addK q dN s.X s.Y s.Z t.X t.Y t.Z k = k (s.add t).X (s.add t).Y (s.add t).Z := by
  simp only [Tri.add, addK, force_eq]

/-- The opposite. -/
def Tri.neg (s : Tri) : Tri := ⟨q - s.X % q, s.Y, s.Z⟩

def Tri.zero : Tri := ⟨0, 1, 1⟩

/-- The points whose scalar has bit `i` are added; `p = 2 ^ i`.  Written with the recursors for speed. -/
def addBits {α : Type} (Q d p : ℕ) (l : List (ℕ × Tri)) (k : ℕ → ℕ → ℕ → α) : ℕ → ℕ → ℕ → α :=
  List.rec (motive := fun _ => ℕ → ℕ → ℕ → α) k (fun a _ ih X Y Z =>
    Nat.rec (motive := fun _ => α) (ih X Y Z) (fun _ _ => addK Q d X Y Z a.2.X a.2.Y a.2.Z ih) ((a.1.div p).mod 2)) l

/-- Bit `i - 1` down to bit `0` of all scalars. -/
def straus (Q d : ℕ) (l : List (ℕ × Tri)) (n : ℕ) : ℕ → ℕ → ℕ → Tri :=
  Nat.rec (motive := fun _ => ℕ → ℕ → ℕ → Tri) Tri.mk (fun i ih X Y Z => force (Nat.pow 2 i) fun p => addK Q d X Y Z X Y Z (addBits Q d p l ih)) n

/-- Evaluation of the scalars and the coordinates; points with the scalar zero are left out. -/
def forceAll {α : Type} : List (ZMod r) → List Tri → (List (ℕ × Tri) → α) → α
  | x :: xs, t :: ts, k => force x.val fun n => Nat.rec (motive := fun _ => α) (forceAll xs ts k) (fun _ _ =>
      force t.X fun X => force t.Y fun Y => force t.Z fun Z => forceAll xs ts fun l => k ((n, ⟨X, Y, Z⟩) :: l)) n
  | _, _, k => k []

def Tri.msm (s : List (ZMod r)) (ts : List Tri) : Tri := forceAll s ts fun l => force q fun Q => force dN fun d => straus Q d l 253 0 1 1

/-- The affine coordinates as field elements, evaluated. -/
def Tri.aff {α : Type} (t : Tri) (k : ZMod q → ZMod q → α) : α :=
  force ((t.Z : ZMod q)⁻¹).val fun i => force (t.X * i % q) fun x => force (t.Y * i % q) fun y => k (x : ZMod q) (y : ZMod q)

def Tri.bytes (t : Tri) : List Byte := t.aff fun x y => force (canonX (x, y)).val fun n => (leBytes 32 n).reverse

/-- The hash of the element. -/
def Tri.hash (t : Tri) : ZMod r := t.aff fun x y => force (x / y).val fun n => (leNat (leBytes 32 n) : ZMod r)

/-- The triple represents the element. -/
def Tri.R (t : Tri) (e : BElem) : Prop := ∃ p : BPt, (p : BElem) = e ∧ Rep p t.X t.Y t.Z

theorem cast_sub_mod (n : ℕ) : ((q - n % q : ℕ) : ZMod q) = -(n : ZMod q) := by
  rw [Nat.cast_sub (Nat.mod_lt n q_prime.pos).le, ZMod.natCast_self, ZMod.natCast_mod, zero_sub]

theorem Rep.congr {p : BPt} {X Y Z X' Y' Z' : ℕ} (h : Rep p X Y Z) (hx : (X : ZMod q) = X') (hy : (Y : ZMod q) = Y') (hz : (Z : ZMod q) = Z') :
    Rep p X' Y' Z' := by
  unfold Rep at *
  rw [← hx, ← hy, ← hz]
  exact h

theorem nat_mod (a b : ℕ) : a.mod b = a % b := rfl

theorem Tri.R.add {s t : Tri} {e f : BElem} (hs : s.R e) (ht : t.R f) : (s.add t).R (e + f) := by
  obtain ⟨p, rfl, hp⟩ := hs
  obtain ⟨p', rfl, hp'⟩ := ht
  refine ⟨p + p', rfl, Rep.congr (rep_add hp hp') ?_ ?_ ?_⟩
  · simp only [Tri.add, addK, force_eq, Nat.mul_eq, Nat.add_eq, Nat.sub_eq, nat_mod, sumX, ZMod.natCast_mod, Nat.cast_mul, Nat.cast_add, cast_sub_mod]
  · simp only [Tri.add, addK, force_eq, Nat.mul_eq, Nat.add_eq, Nat.sub_eq, nat_mod, sumY, ZMod.natCast_mod, Nat.cast_mul, Nat.cast_add]
  · simp only [Tri.add, addK, force_eq, Nat.mul_eq, Nat.add_eq, Nat.sub_eq, nat_mod, sumZ, ZMod.natCast_mod, Nat.cast_mul, Nat.cast_add, cast_sub_mod]

theorem Tri.R.neg {s : Tri} {e : BElem} (hs : s.R e) : s.neg.R (-e) := by
  obtain ⟨p, rfl, hz, hx, hy⟩ := hs
  refine ⟨-p, rfl, hz, ?_, ?_⟩
  · rw [Tri.neg, cast_sub_mod, Pt.neg_x, neg_mul, hx]
  · rw [Tri.neg, Pt.neg_y, hy]

theorem Tri.R.zero : Tri.zero.R 0 := ⟨0, rfl, by simp [Tri.zero], by simp [Tri.zero], by simp [Tri.zero]⟩

theorem zsmul_val (c : ZMod r) (e : BElem) : c • e = c.val • e := by
  conv_lhs => rw [← ZMod.natCast_zmod_val c]
  rw [Nat.cast_smul_eq_nsmul]

/-- `Σ kⱼ pⱼ` with the scalars changed by `f`. -/
def nlin (f : ℕ → ℕ) (ks : List ℕ) (es : List BElem) : BElem := (List.zipWith (fun k e => f k • e) ks es).sum

theorem nlin_cons (f : ℕ → ℕ) (k : ℕ) (ks : List ℕ) (e : BElem) (es : List BElem) : nlin f (k :: ks) (e :: es) = f k • e + nlin f ks es := by
  simp [nlin]

theorem addBits_R {α : Type} {S : α → Prop} (i : ℕ) {k : ℕ → ℕ → ℕ → α} :
    ∀ {ks : List ℕ} {ts : List Tri} {es : List BElem} {X Y Z : ℕ} {e : BElem}, List.Forall₂ Tri.R ts es → Tri.R ⟨X, Y, Z⟩ e →
    (∀ X Y Z, Tri.R ⟨X, Y, Z⟩ (e + nlin (· / 2 ^ i % 2) ks es) → S (k X Y Z)) → S (addBits q dN (2 ^ i) (ks.zip ts) k X Y Z)
  | [], ts, es, X, Y, Z, e, _, h, hk => hk _ _ _ (by simpa [nlin] using h)
  | a :: ks, _, _, X, Y, Z, e, .nil, h, hk => hk _ _ _ (by simpa [nlin] using h)
  | a :: ks, t :: ts, x :: es, X, Y, Z, e, .cons ht hts, h, hk => by
    rw [nlin_cons] at hk
    have hstep : addBits q dN (2 ^ i) ((a :: ks).zip (t :: ts)) k X Y Z =
        Nat.rec (motive := fun _ => α) (addBits q dN (2 ^ i) (ks.zip ts) k X Y Z)
          (fun _ _ => addK q dN X Y Z t.X t.Y t.Z (addBits q dN (2 ^ i) (ks.zip ts) k)) (a / 2 ^ i % 2) := rfl
    rw [hstep]
    have hb : a / 2 ^ i % 2 = 1 ∨ a / 2 ^ i % 2 = 0 := by omega
    rcases hb with hb | hb
    · rw [hb] at hk ⊢
      change S (addK q dN (Tri.mk X Y Z).X (Tri.mk X Y Z).Y (Tri.mk X Y Z).Z t.X t.Y t.Z _)
      rw [addK_eq]
      refine addBits_R i hts (h.add ht) fun X Y Z hR => hk X Y Z ?_
      rwa [one_nsmul, ← add_assoc]
    · rw [hb] at hk ⊢
      refine addBits_R i hts h fun X Y Z hR => hk X Y Z ?_
      rwa [zero_nsmul, zero_add]

theorem nlin_step (i : ℕ) : ∀ (ks : List ℕ) (es : List BElem),
    nlin (· / 2 ^ (i + 1)) ks es + nlin (· / 2 ^ (i + 1)) ks es + nlin (· / 2 ^ i % 2) ks es = nlin (· / 2 ^ i) ks es
  | [], es => by simp [nlin]
  | k :: ks, [] => by simp [nlin]
  | k :: ks, x :: es => by
    have ih := nlin_step i ks es
    rw [nlin_cons, nlin_cons, nlin_cons, ← ih]
    have e : k / 2 ^ i = k / 2 ^ (i + 1) + k / 2 ^ (i + 1) + k / 2 ^ i % 2 := by
      rw [pow_succ, ← Nat.div_div_eq_div_mul]
      omega
    conv_rhs => rw [e, add_nsmul, add_nsmul]
    abel

theorem straus_R {ks : List ℕ} {ts : List Tri} {es : List BElem} (h : List.Forall₂ Tri.R ts es) :
    ∀ (i : ℕ) {X Y Z : ℕ}, Tri.R ⟨X, Y, Z⟩ (nlin (· / 2 ^ i) ks es) → (straus q dN (ks.zip ts) i X Y Z).R (nlin id ks es)
  | 0, X, Y, Z, ha => by
    have e : nlin id ks es = nlin (· / 2 ^ 0) ks es := by
      unfold nlin
      congr 2
      funext k e
      simp
    rw [e]
    exact ha
  | i + 1, X, Y, Z, ha => by
    have hstep : straus q dN (ks.zip ts) (i + 1) X Y Z = force (2 ^ i) fun p => addK q dN X Y Z X Y Z (addBits q dN p (ks.zip ts) (straus q dN (ks.zip ts) i)) := rfl
    rw [hstep, force_eq]
    change Tri.R (addK q dN (Tri.mk X Y Z).X (Tri.mk X Y Z).Y (Tri.mk X Y Z).Z (Tri.mk X Y Z).X (Tri.mk X Y Z).Y (Tri.mk X Y Z).Z _) _
    rw [addK_eq]
    refine addBits_R (S := fun t : Tri => t.R (nlin id ks es)) i h (ha.add ha) fun X Y Z hR => straus_R h i ?_
    rwa [nlin_step] at hR

/-- What is left out contributes nothing. -/
theorem forceAll_R {α : Type} {S : α → Prop} : ∀ {s : List (ZMod r)} {ts : List Tri} {es : List BElem} {k : List (ℕ × Tri) → α}, List.Forall₂ Tri.R ts es →
    (∀ (l : List (ℕ × Tri)) (ks : List ℕ) (ts' : List Tri) (es' : List BElem), l = ks.zip ts' → (∀ n ∈ ks, ∃ c ∈ s, n = ZMod.val c) →
      List.Forall₂ Tri.R ts' es' → nlin id (s.map ZMod.val) es = nlin id ks es' → S (k l)) → S (forceAll s ts k)
  | [], _, _, _, _, hk => hk [] [] [] [] rfl (by simp) .nil (by simp [nlin])
  | _ :: _, [], _, _, .nil, hk => hk [] [] [] [] rfl (by simp) .nil (by simp [nlin])
  | x :: s, t :: ts, e :: es, k, .cons ht hts, hk => by
    unfold forceAll
    simp only [force_eq]
    rcases hx : x.val with _ | n
    · refine forceAll_R hts fun l ks ts' es' hl hm hR hn => hk l ks ts' es' hl (fun n hn => ?_) hR ?_
      · obtain ⟨c, hc, e⟩ := hm n hn
        exact ⟨c, List.mem_cons_of_mem _ hc, e⟩
      · rw [List.map_cons, nlin_cons, hx, id, zero_nsmul, zero_add, hn]
    · refine forceAll_R hts fun l ks ts' es' hl hm hR hn => hk _ ((n + 1) :: ks) (t :: ts') (e :: es') (by rw [hl]; rfl) (fun m hm' => ?_) (.cons ht hR) ?_
      · rcases List.mem_cons.1 hm' with rfl | h
        · exact ⟨x, List.mem_cons_self .., hx.symm⟩
        · obtain ⟨c, hc, e⟩ := hm m h
          exact ⟨c, List.mem_cons_of_mem _ hc, e⟩
      · rw [List.map_cons, nlin_cons, nlin_cons, hx, hn]

theorem msm_R (s : List (ZMod r)) {ts : List Tri} {es : List BElem} (h : List.Forall₂ Tri.R ts es) : (Tri.msm s ts).R (lin s es) := by
  have e : lin s es = nlin id (s.map ZMod.val) es := by
    unfold lin nlin
    congr 1
    rw [List.zipWith_map_left]
    congr 1
    funext c e
    exact zsmul_val c e
  rw [e]
  have h0 : ∀ (ks : List ℕ) (es : List BElem), (∀ k ∈ ks, k / 2 ^ 253 = 0) → nlin (· / 2 ^ 253) ks es = 0 := by
    intro ks
    induction ks with
    | nil => intro es _; simp [nlin]
    | cons k ks ih =>
      intro es hk
      cases es with
      | nil => simp [nlin]
      | cons x es =>
        rw [nlin_cons, ih es fun k' hk' => hk k' (List.mem_cons_of_mem _ hk'), hk k (List.mem_cons_self ..), zero_nsmul, add_zero]
  have hz : ∀ c : ZMod r, c.val / 2 ^ 253 = 0 := fun c => Nat.div_eq_of_lt (lt_of_lt_of_le (ZMod.val_lt c) (by decide +kernel))
  unfold Tri.msm
  refine forceAll_R (S := fun t : Tri => t.R (nlin id (s.map ZMod.val) es)) h fun l ks' ts' es' hl hk hR hn => ?_
  simp only [force_eq]
  rw [hl, hn]
  apply straus_R hR 253
  rw [h0]
  · exact Tri.R.zero
  · intro k hk'
    obtain ⟨c, -, rfl⟩ := hk k hk'
    exact hz c

theorem Tri.aff_eq {α : Type} (t : Tri) (k : ZMod q → ZMod q → α) : t.aff k = k (t.X / t.Z) (t.Y / t.Z) := by
  simp only [Tri.aff, force_eq, ZMod.natCast_mod, Nat.cast_mul, ZMod.natCast_zmod_val, div_eq_mul_inv]

theorem Rep.aff {p : BPt} {X Y Z : ℕ} (h : Rep p X Y Z) : (X : ZMod q) / Z = p.x ∧ (Y : ZMod q) / Z = p.y :=
  ⟨by rw [div_eq_iff h.1, h.2.1], by rw [div_eq_iff h.1, h.2.2]⟩

theorem bytes_R {t : Tri} {e : BElem} (h : t.R e) : t.bytes = e.enc := by
  obtain ⟨p, rfl, hp⟩ := h
  rw [Tri.bytes, Tri.aff_eq, force_eq, (Rep.aff hp).1, (Rep.aff hp).2, Elem.enc, Elem.cx_mk]
  rfl

theorem hash_R {t : Tri} {e : BElem} (h : t.R e) : t.hash = e.hash (ZMod r) := by
  obtain ⟨p, rfl, hp⟩ := h
  rw [Tri.hash, Tri.aff_eq, force_eq, (Rep.aff hp).1, (Rep.aff hp).2, Elem.hash, Elem.ratio_mk]
  rfl

theorem isZero_R {t : Tri} {e : BElem} (h : t.R e) : decide (t.X % q = 0) = true ↔ e = 0 := by
  obtain ⟨p, rfl, hz, hx, hy⟩ := h
  rw [decide_eq_true_eq]
  have h1 : t.X % q = 0 ↔ p.x = 0 := by
    rw [← ZMod.val_natCast, ← hx]
    constructor
    · intro h
      have := (ZMod.val_eq_zero _).1 h
      exact (mul_eq_zero.1 this).resolve_right hz
    · intro h
      rw [h, zero_mul, ZMod.val_zero]
  rw [h1]
  constructor
  · intro h
    apply Elem.cx_inj
    rw [Elem.cx_zero, Elem.cx_mk, canonX, h, neg_zero, ite_self]
  · intro h
    have h : (p : BElem) = ((0 : BPt) : BElem) := h
    rcases Elem.eq_iff.1 h with ⟨h, -⟩ | ⟨h, -⟩ <;> simpa using h.symm

/-- The operations on numbers. -/
def natOps : PointOps (ZMod r) Tri where
  add := Tri.add
  sub s t := s.add t.neg
  smul c t := Tri.msm [c] [t]
  msm := Tri.msm
  isZero t := decide (t.X % q = 0)
  toBytes t := .ok t.bytes
  encS x := force x.val fun n => leBytes 32 n
  H m := (leNat (Sha256.hash m) : ZMod r)

/-- They compute the group operations. -/
theorem natOps_sound : natOps.Sound shaOracle Tri.R where
  add := Tri.R.add
  sub h h' := by rw [sub_eq_add_neg]; exact h.add h'.neg
  smul c p x h := by
    have := msm_R [c] (List.Forall₂.cons h .nil)
    have e : lin [c] [x] = c • x := by simp [lin]
    rwa [e] at this
  msm s _ _ _ h := msm_R s h
  isZero := isZero_R
  toBytes h := congrArg Except.ok (bytes_R h)
  encS := by funext x; exact force_eq _ _
  H := rfl

/-- The default reference string in coordinates. -/
def crsTri : List Tri := crsHex.map fun n => ⟨entryX n, entryY n, 1⟩

theorem crsTri_R : List.Forall₂ Tri.R crsTri crsElems := by
  have e : crsTri = crsHex.attach.map fun n => ⟨entryX n.1, entryY n.1, 1⟩ := by
    unfold crsTri
    conv_lhs => rw [← List.attach_map_subtype_val crsHex, List.map_map]
    rfl
  rw [e]
  unfold crsElems
  rw [List.forall₂_map_left_iff, List.forall₂_map_right_iff, List.forall₂_same]
  intro n _
  exact ⟨_, rfl, by simp, by rw [Nat.cast_one, mul_one]; rfl, by rw [Nat.cast_one, mul_one]; rfl⟩

end Verif.Vectors
