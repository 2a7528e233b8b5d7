import Verif.Proofs.Fast
import Verif.Proofs.LeafInput
import Verif.Vectors.Data
/-!
# Evaluating the specification on the official test vectors

The inputs of the vectors are the bytes 0, 1, 2, …; here they are lists of numbers.
-/

namespace Fast

open Spec
open Vectors (ramp bytesBE)

/-- The numbers `i`, `i + 1`, …, in all `n`. -/
def count : Nat → Nat → List Nat
  | 0, _ => []
  | n + 1, i => force i fun i => i :: count n (Nat.succ i)

theorem count_eq (n i : Nat) : count n i = List.range' i n := by
  induction n generalizing i with
  | zero => rfl
  | succ n ih =>
    unfold count
    rw [force_eq, ih]
    rfl

/-- The first four bytes of a list as a number. -/
def wordAt (l : List Nat) : Nat :=
  l.getD 0 0 + 256 * (l.getD 1 0 + 256 * (l.getD 2 0 + 256 * l.getD 3 0))

/-- Splits off the first word. -/
def word {α : Type} (l : List Nat) (k : Nat → List Nat → α) : α :=
  match l with
  | [] => k (nat_lit 0) []
  | [a] => force a fun x => k x []
  | [a, b] => force (Nat.add a (Nat.mul (nat_lit 256) b)) fun x => k x []
  | [a, b, c] =>
    force (Nat.add a (Nat.mul (nat_lit 256) (Nat.add b (Nat.mul (nat_lit 256) c)))) fun x => k x []
  | a :: b :: c :: d :: r =>
    force (Nat.add a (Nat.mul (nat_lit 256) (Nat.add b (Nat.mul (nat_lit 256)
      (Nat.add c (Nat.mul (nat_lit 256) d)))))) fun x => k x r

theorem word_eq {α : Type} (l : List Nat) (k : Nat → List Nat → α) :
    word l k = k (wordAt l) (l.drop 4) := by
  match l with
  | [] => rfl
  | [a] => exact (force_eq _ fun x => k x []).trans rfl
  | [a, b] => exact (force_eq _ fun x => k x []).trans rfl
  | [a, b, c] => exact (force_eq _ fun x => k x []).trans rfl
  | a :: b :: c :: d :: r => exact (force_eq _ fun x => k x r).trans rfl

/-- Splits off the first block. -/
def block {α : Type} (l : List Nat) (k : List Nat → List Nat → α) : α :=
  word l fun m0 l => word l fun m1 l => word l fun m2 l => word l fun m3 l =>
  word l fun m4 l => word l fun m5 l => word l fun m6 l => word l fun m7 l =>
  word l fun m8 l => word l fun m9 l => word l fun m10 l => word l fun m11 l =>
  word l fun m12 l => word l fun m13 l => word l fun m14 l => word l fun m15 l =>
  k [m0, m1, m2, m3, m4, m5, m6, m7, m8, m9, m10, m11, m12, m13, m14, m15] l

theorem block_eq {α : Type} (l : List Nat) (k : List Nat → List Nat → α) :
    block l k = k ((List.range 16).map fun j => wordAt (l.drop (4 * j))) (l.drop 64) := by
  unfold block
  simp only [word_eq, List.drop_drop]
  rfl

/-- The bytes of a list of numbers. -/
def toBytes (l : List Nat) : List Byte := l.map (BitVec.ofNat 8)

theorem toBytes_getD (l : List Nat) (i : Nat) : (toBytes l).getD i 0 = BitVec.ofNat 8 (l.getD i 0) := by
  unfold toBytes
  rw [List.getD_eq_getElem?_getD, List.getD_eq_getElem?_getD, List.getElem?_map]
  cases l[i]? <;> rfl

/-- All numbers of the list are bytes. -/
def Small (l : List Nat) : Prop := ∀ x ∈ l, x < 256

theorem Small.drop {l : List Nat} (h : Small l) (n : Nat) : Small (l.drop n) :=
  fun x hx => h x (List.mem_of_mem_drop hx)

theorem Small.append {a b : List Nat} (ha : Small a) (hb : Small b) : Small (a ++ b) := by
  intro x hx
  rcases List.mem_append.mp hx with h | h
  · exact ha x h
  · exact hb x h

theorem Small.getD {l : List Nat} (h : Small l) (i : Nat) : l.getD i 0 < 256 := by
  rw [List.getD_eq_getElem?_getD]
  cases e : l[i]? with
  | none => decide
  | some x => exact h x (List.mem_of_getElem? e)

theorem wordAt_eq {l : List Nat} (h : Small l) (j : Nat) :
    W (wordAt (l.drop j)) = wordLE ((toBytes l).getD j 0) ((toBytes l).getD (j + 1) 0)
      ((toBytes l).getD (j + 2) 0) ((toBytes l).getD (j + 3) 0) := by
  rw [wordLE_eq]
  simp only [toBytes_getD, BitVec.toNat_ofNat]
  rw [Nat.mod_eq_of_lt (h.getD _), Nat.mod_eq_of_lt (h.getD _), Nat.mod_eq_of_lt (h.getD _),
    Nat.mod_eq_of_lt (h.getD _)]
  congr 1
  unfold wordAt
  simp only [List.getD_eq_getElem?_getD, List.getElem?_drop, Nat.add_zero]
  omega

theorem Sim.block {l : List Nat} (h : Small l) :
    Sim ((List.range 16).map fun j => wordAt (l.drop (4 * j))) (blockWords (toBytes l)) := by
  refine ⟨rfl, fun i => ?_⟩
  have : ((List.range 16).map fun j => wordAt (l.drop (4 * j))).getD i.val 0 =
      wordAt (l.drop (4 * i.val)) := by
    rw [List.getD_eq_getElem?_getD, List.getElem?_map, List.getElem?_range i.isLt]
    rfl
  rw [this, wordAt_eq h]
  rfl

theorem blockWords_take (b : List Byte) : blockWords (b.take 64) = blockWords b := by
  funext i
  unfold blockWords
  have : ∀ j, j < 64 → (b.take 64).getD j 0 = b.getD j 0 := by
    intro j hj
    rw [List.getD_eq_getElem?_getD, List.getD_eq_getElem?_getD, List.getElem?_take_of_lt hj]
  have hi := i.isLt
  rw [this _ (by omega), this _ (by omega), this _ (by omega), this _ (by omega)]

/-- Hash `len` bytes; there are `k` blocks before the last one, and `t` bytes came before. -/
def absorbN : Nat → List Nat → Nat → List Nat → Nat → Bool → List Nat
  | 0, h, t, data, len, ln => block data fun m _ => F h m (Nat.add t len) true ln
  | k + 1, h, t, data, len, ln =>
    force (Nat.add t (nat_lit 64)) fun t => force (Nat.sub len (nat_lit 64)) fun len =>
    block data fun m r => absorbN k (F h m t false false) t r len ln

theorem Sim.absorbN {h : List Nat} {f : Fin 8 → Word} (s : Sim h f) (k t : Nat) {data : List Nat}
    (hs : Small data) (ln : Bool) (hk : data.length ≤ 64 * (k + 1)) (hk' : k ≠ 0 → 64 * k < data.length) :
    Sim (Fast.absorbN k h t data data.length ln) (Spec.absorb f t (toBytes data) ln) := by
  have hl : (toBytes data).length = data.length := List.length_map _
  induction k generalizing h f t data with
  | zero =>
    unfold Fast.absorbN Spec.absorb
    rw [if_pos (by omega), block_eq, hl]
    exact s.compress (Sim.block hs) _ _ _
  | succ k ih =>
    have := hk' (by omega)
    unfold Fast.absorbN Spec.absorb
    rw [if_neg (by omega), force_eq, force_eq, block_eq, blockWords_take]
    have e : data.length.sub 64 = (data.drop 64).length := by rw [List.length_drop]; rfl
    rw [e, show (toBytes data).drop 64 = toBytes (data.drop 64) from List.map_drop.symm]
    exact ih (s.compress (Sim.block hs) _ _ _) _ (hs.drop 64)
      (by rw [List.length_drop]; omega) (by rw [List.length_drop]; omega) (List.length_map _)

/-- A list of bytes as a number, most significant byte first. -/
def horner : List Nat → Nat → Nat
  | [], a => a
  | x :: xs, a => force (Nat.add (Nat.mul a (nat_lit 256)) x) fun a => horner xs a

theorem horner_append (l : List Nat) (x a : Nat) : horner (l ++ [x]) a = horner l a * 256 + x := by
  induction l generalizing a with
  | nil => exact force_eq _ _
  | cons y l ih =>
    rw [List.cons_append]
    unfold horner
    rw [force_eq, force_eq]
    exact ih _

theorem bytesBE_horner (l : List Nat) (h : Small l) : bytesBE l.length (horner l 0) = toBytes l := by
  suffices ∀ r : List Nat, Small r → bytesBE r.length (horner r.reverse 0) = toBytes r.reverse by
    have q := this l.reverse (fun x hx => h x (List.mem_reverse.mp hx))
    rwa [List.reverse_reverse, List.length_reverse] at q
  intro r hr
  induction r with
  | nil => rfl
  | cons x r ih =>
    have hx : x < 256 := hr x (by simp)
    rw [List.reverse_cons, horner_append]
    show bytesBE r.length ((horner r.reverse 0 * 256 + x) / 256) ++
      [BitVec.ofNat 8 (horner r.reverse 0 * 256 + x)] = _
    rw [show (horner r.reverse 0 * 256 + x) / 256 = horner r.reverse 0 by omega,
      ih (fun y hy => hr y (by simp [hy]))]
    unfold toBytes
    rw [List.map_append]
    congr 1
    show [_] = [_]
    congr 1
    apply BitVec.eq_of_toNat_eq
    simp only [BitVec.toNat_ofNat]
    omega

/-- `bytes`, each word evaluated first. -/
def bytesN (l : List Nat) : List Nat :=
  l.flatMap fun w => force w fun w => [w % 256, (w / 256) % 256, (w / 65536) % 256, (w / 16777216) % 256]

theorem bytesN_eq (l : List Nat) : bytesN l = bytes l := by
  unfold bytesN bytes
  congr 1
  funext w
  exact force_eq w _

theorem bytes_small (l : List Nat) : Small (bytes l) := by
  intro x hx
  obtain ⟨w, _, hw⟩ := List.mem_flatMap.mp hx
  simp only [List.mem_cons, List.not_mem_nil, or_false] at hw
  omega

theorem bytes_length (l : List Nat) : (bytes l).length = 4 * l.length := by
  induction l with
  | nil => rfl
  | cons w l ih =>
    show ([_, _, _, _] ++ bytes l).length = _
    rw [List.length_append, ih, List.length_cons]
    simp only [List.length_cons, List.length_nil]
    omega

theorem Sim.digest32 {h : List Nat} {f : Fin 8 → Word} (s : Sim h f) :
    digestBytes f 32 = toBytes (bytes h) := by
  rw [s.digest 32, List.take_of_length_le (by rw [bytes_length, s.1]; decide)]
  rfl

theorem Sim.value {h : List Nat} {f : Fin 8 → Word} (s : Sim h f) :
    bytesBE 32 (horner (bytesN h) 0) = digestBytes f 32 := by
  have e : (bytes h).length = 32 := by rw [bytes_length, s.1]
  rw [s.digest32, bytesN_eq, ← bytesBE_horner _ (bytes_small h), e]

theorem count_length (n i : Nat) : (count n i).length = n := by
  rw [count_eq, List.length_range']

theorem count_small {n i : Nat} (h : n = 0 ∨ n + i ≤ 256) : Small (count n i) := by
  intro x hx
  rw [count_eq, List.mem_range'_1] at hx
  omega

theorem ramp_eq (n : Nat) : ramp n = toBytes (count n 0) := by
  rw [count_eq, ← List.range_eq_range']
  rfl

theorem ramp_slice {n i : Nat} :
    ((ramp n).drop i).take 64 = toBytes (count (min 64 (n - i)) i) := by
  rw [count_eq]
  unfold ramp toBytes
  rw [← List.map_drop, ← List.map_take]
  congr 1
  rw [List.range_eq_range', List.drop_range']
  apply List.ext_getElem
  · simp
  · intro k h1 h2
    simp

/-- Hashing `m` bytes `i`, `i + 1`, … after `kl` bytes `kb`. -/
def run (h : List Nat) (kb : List Nat) (kl m i : Nat) (ln : Bool) : List Nat :=
  force (Nat.add kl m) fun len => force (Nat.div (Nat.sub len (nat_lit 1)) (nat_lit 64)) fun k =>
    absorbN k h (nat_lit 0) (kb ++ count m i) len ln

theorem Sim.run {h : List Nat} {f : Fin 8 → Word} (s : Sim h f) {kb : List Nat} (hb : Small kb) {m i : Nat}
    (hm : m = 0 ∨ m + i ≤ 256) (ln : Bool) :
    Sim (Fast.run h kb kb.length m i ln) (Spec.absorb f 0 (toBytes kb ++ toBytes (count m i)) ln) := by
  unfold Fast.run
  rw [force_eq, force_eq]
  have e : kb.length.add m = (kb ++ count m i).length := by
    rw [List.length_append, count_length]; rfl
  rw [e]
  have a : toBytes kb ++ toBytes (count m i) = toBytes (kb ++ count m i) := List.map_append.symm
  rw [a]
  refine s.absorbN _ 0 (hb.append (count_small hm)) ln ?_ ?_
  · show _ ≤ 64 * (((kb ++ count m i).length - 1) / 64 + 1)
    omega
  · intro h
    have h' : ((kb ++ count m i).length - 1) / 64 ≠ 0 := h
    show 64 * (((kb ++ count m i).length - 1) / 64) < _
    omega

/-- The initial chaining value that differs from the `IV` in these words. -/
def start (w0 w2 w3 : Nat) : List Nat := [w0, 3144134277, w2, w3, 1359893119, 2600822924, 528734635, 1541459225]

/-- The key of the vectors, padded to a block. -/
def keyN : List Nat := [0, 1, 2, 3, 4, 5, 6, 7, 8, 9, 10, 11, 12, 13, 14, 15, 16, 17, 18, 19, 20, 21, 22, 23, 24, 25, 26, 27, 28, 29, 30, 31, 0, 0, 0, 0, 0, 0, 0, 0, 0, 0, 0, 0, 0, 0, 0, 0, 0, 0, 0, 0, 0, 0, 0, 0, 0, 0, 0, 0, 0, 0, 0, 0]

theorem keyN_small : Small keyN := by
  unfold Small
  decide

theorem keyN_eq : toBytes keyN = keyBlock (ramp 32) := by decide +kernel

/-- BLAKE2s of `n` bytes without a key. -/
def plainS (n : Nat) : Nat :=
  horner (bytesN (run (start 1795745351 1013904242 2773480762) [] 0 n 0 false)) (nat_lit 0)

/-- BLAKE2s of `n` bytes with the key. -/
def keyedS (n : Nat) : Nat :=
  horner (bytesN (run (start 1795737159 1013904242 2773480762) keyN 64 n 0 false)) (nat_lit 0)

theorem plainS_eq {n : Nat} (h : n < 256) : bytesBE 32 (plainS n) = Spec.blake2s (ramp n) := by
  have s : Sim (start 1795745351 1013904242 2773480762) (sequential 32 0).init := ⟨rfl, by decide +kernel⟩
  refine (s.run (kb := []) (fun _ h => by cases h) (m := n) (i := 0) (by omega) false).value.trans ?_
  rw [← ramp_eq]
  rfl

theorem keyedS_eq {n : Nat} (h : n < 256) :
    bytesBE 32 (keyedS n) = Spec.hash (sequential 32 32) (ramp 32) false (ramp n) := by
  have s : Sim (start 1795737159 1013904242 2773480762) (sequential 32 32).init := ⟨rfl, by decide +kernel⟩
  refine (s.run keyN_small (m := n) (i := 0) (by omega) false).value.trans ?_
  rw [← ramp_eq, keyN_eq]
  rfl

/-- At most 64. -/
def clip (x : Nat) : Nat := bif Nat.ble x (nat_lit 64) then x else (nat_lit 64)

theorem clip_eq (x : Nat) : clip x = min 64 x := by
  unfold clip
  cases h : Nat.ble x 64 with
  | true => rw [Nat.min_eq_right (Nat.le_of_ble_eq_true h)]; rfl
  | false =>
    have : ¬ x ≤ 64 := fun q => by rw [Nat.ble_eq_true_of_le q] at h; cases h
    rw [Nat.min_eq_left (by omega)]; rfl

/-- The digest of leaf `i`. -/
def leafN (w0 : Nat) (kb : List Nat) (kl n i : Nat) (ln : Bool) : List Nat :=
  force (clip (Nat.sub n (Nat.mul (nat_lit 64) i))) fun m => force (Nat.xor (nat_lit 1013904242) i) fun w2 =>
    force (Nat.mul (nat_lit 64) i) fun j => bytesN (run (start w0 w2 (nat_lit 2236609850)) kb kl m j ln)

/-- BLAKE2sp of `n` bytes. -/
def spN (w0 : Nat) (kb : List Nat) (kl n : Nat) : Nat :=
  horner (bytesN (absorbN 3 (start w0 (nat_lit 1013904242) (nat_lit 2236544314)) (nat_lit 0)
    (leafN w0 kb kl n (nat_lit 0) false ++ (leafN w0 kb kl n (nat_lit 1) false ++
    (leafN w0 kb kl n (nat_lit 2) false ++ (leafN w0 kb kl n (nat_lit 3) false ++
    (leafN w0 kb kl n (nat_lit 4) false ++ (leafN w0 kb kl n (nat_lit 5) false ++
    (leafN w0 kb kl n (nat_lit 6) false ++ (leafN w0 kb kl n (nat_lit 7) true ++ []))))))))
    (nat_lit 256) true)) (nat_lit 0)

theorem leafN_eq {w0 : Nat} {kb : List Nat} {n : Nat} {i : Fin 8} {key : List Byte} (hn : n ≤ 256)
    (hk : toBytes kb = keyBlock key) (hb : Small kb)
    (s : Sim (start w0 (Nat.xor 1013904242 i.val) 2236609850)
      (Spec.Sp.nodeParams 32 (BitVec.ofNat 8 key.length) (BitVec.ofNat 48 i.val) 0).init) :
    Spec.Sp.leaf 32 key (ramp n) i = toBytes (leafN w0 kb kb.length n i.val (i.val == 7)) ∧
      Small (leafN w0 kb kb.length n i.val (i.val == 7)) ∧
      (leafN w0 kb kb.length n i.val (i.val == 7)).length = 32 := by
  unfold leafN
  rw [force_eq, force_eq, force_eq, bytesN_eq]
  have hc : clip (n.sub (Nat.mul 64 i.val)) = min 64 (n - 64 * i.val) := clip_eq _
  rw [hc]
  have hi := i.isLt
  have hr := s.run hb (m := min 64 (n - 64 * i.val)) (i := 64 * i.val) (by omega) (i.val == 7)
  refine ⟨?_, bytes_small _, ?_⟩
  · refine Eq.trans ?_ hr.digest32
    unfold Spec.Sp.leaf
    rw [Spec.Sp.leafInput_one i _ (by
      unfold ramp; rw [List.length_map, List.length_range]; omega), ramp_slice, hk]
  · rw [bytes_length]
    exact congrArg (4 * ·) hr.1

theorem spN_eq {w0 : Nat} {kb : List Nat} {n : Nat} {key : List Byte} (hn : n ≤ 256)
    (hk : toBytes kb = keyBlock key) (hb : Small kb)
    (s : ∀ i : Fin 8, Sim (start w0 (Nat.xor 1013904242 i.val) 2236609850)
      (Spec.Sp.nodeParams 32 (BitVec.ofNat 8 key.length) (BitVec.ofNat 48 i.val) 0).init)
    (r : Sim (start w0 1013904242 2236544314)
      (Spec.Sp.nodeParams 32 (BitVec.ofNat 8 key.length) 0 1).init) :
    bytesBE 32 (spN w0 kb kb.length n) = Spec.Sp.hash 32 key (ramp n) := by
  let L : Fin 8 → List Nat := fun i => leafN w0 kb kb.length n i.val (i.val == 7)
  have hL := fun i => leafN_eq (i := i) hn hk hb (s i)
  have h1 : (List.finRange 8).flatMap (Spec.Sp.leaf 32 key (ramp n)) =
      toBytes ((List.finRange 8).flatMap L) := by
    unfold toBytes
    rw [List.map_flatMap]
    congr 1
    funext i
    exact (hL i).1
  have h2 : Small ((List.finRange 8).flatMap L) := by
    intro x hx
    obtain ⟨i, _, hi⟩ := List.mem_flatMap.mp hx
    exact (hL i).2.1 x hi
  have h3 : ((List.finRange 8).flatMap L).length = 256 := by
    rw [List.length_flatMap]
    have : (List.finRange 8).map (fun i => (L i).length) = (List.finRange 8).map fun _ => 32 := by
      congr 1
      funext i
      exact (hL i).2.2
    rw [this]
    decide
  have q := (r.absorbN 3 0 h2 true (by rw [h3]; decide) (by rw [h3]; decide)).value
  rw [h3, ← h1] at q
  exact q

/-- BLAKE2sp of `n` bytes without a key. -/
def plainSp (n : Nat) : Nat := spN (nat_lit 1744954951) [] (nat_lit 0) n

/-- BLAKE2sp of `n` bytes with the key. -/
def keyedSp (n : Nat) : Nat := spN (nat_lit 1744946759) keyN (nat_lit 64) n

theorem plainSp_eq {n : Nat} (h : n < 256) : bytesBE 32 (plainSp n) = Spec.Sp.blake2sp (ramp n) :=
  spN_eq (kb := []) (key := []) (by omega) rfl (fun _ h => by cases h)
    (fun i => ⟨rfl, by revert i; decide +kernel⟩) ⟨rfl, by decide +kernel⟩

theorem keyedSp_eq {n : Nat} (h : n < 256) :
    bytesBE 32 (keyedSp n) = Spec.Sp.hash 32 (ramp 32) (ramp n) :=
  spN_eq (key := ramp 32) (by omega) keyN_eq keyN_small
    (fun i => ⟨rfl, by revert i; decide +kernel⟩) ⟨rfl, by decide +kernel⟩

/-- The values of `f` at `n`, `n + 1`, … are those of the list. -/
def agrees (f : Nat → Nat) : Nat → List Nat → Bool
  | _, [] => true
  | n, v :: vs => force n fun n => bif Nat.beq (f n) v then agrees f (Nat.succ n) vs else false

theorem agrees_eq {f : Nat → Nat} {n : Nat} {vs : List Nat} (h : agrees f n vs = true) (j : Nat)
    (hj : j < vs.length) : f (n + j) = vs[j] := by
  induction vs generalizing n j with
  | nil => cases hj
  | cons v vs ih =>
    unfold agrees at h
    rw [force_eq] at h
    cases q : Nat.beq (f n) v with
    | false => rw [q] at h; cases h
    | true =>
      rw [q] at h
      cases j with
      | zero => exact Nat.eq_of_beq_eq_true q
      | succ j =>
        have := ih h j (Nat.lt_of_succ_lt_succ hj)
        rw [show n + (j + 1) = n.succ + j by omega]
        exact this

/-- The part of a table that has been checked. -/
theorem agrees_part {f : Nat → Nat} {lo : Nat} {t : List Nat}
    (h : agrees f lo ((t.drop lo).take 32) = true) (hl : lo + 32 ≤ t.length) {n : Nat} (h1 : lo ≤ n)
    (h2 : n < lo + 32) : f n = t.getD n 0 := by
  have := agrees_eq h (n - lo) (by rw [List.length_take, List.length_drop]; omega)
  rw [List.getElem_take, List.getElem_drop] at this
  simp only [show lo + (n - lo) = n by omega] at this
  rw [this, List.getD_eq_getElem?_getD, List.getElem?_eq_getElem (by omega)]
  rfl

end Fast
