import Verif.Proofs.SpUpdate
/-!
# `blake2sp::State::finalize`, `count`, `with_params`
-/

namespace Blake2s.Sp

open Spec.Sp (leafInput)

theorem chunk_list {total : List U8} {n : Nat} {s : State} (h : Held total n total.length s)
    (k : Fin 16) (b : Nat) (hb : b = s.buflen.toNat - 64 * k.val) :
    sliceTo (subArray s.buf (64 * k.val) 64).toList (min b BLOCKBYTES) =
      .ok (((total.drop (512 * n)).drop (64 * k.val)).take 64) := by
  unfold BLOCKBYTES
  rw [sliceTo_ok _ _ (by simp; omega), subArray_toList _ _ _ (by omega)]
  have hbuf := h.buf
  rw [List.take_length] at hbuf
  rw [← hbuf, List.drop_take, ← hb, List.take_take, List.take_take]
  congr 2
  omega

theorem rest_two {total : List U8} {n : Nat} {s : State} (h : Held total n total.length s) (i : Fin 8) :
    leafInput i (total.drop (512 * n)) = ((total.drop (512 * n)).drop (64 * i.val)).take 64 ++
      ((total.drop (512 * n)).drop (64 * (i.val + 8))).take 64 := by
  have h1 := h.len
  have h2 := h.le
  exact Spec.Sp.leafInput_two i _ (by rw [List.length_drop]; omega)

/-- With overflow checks on, the counter of a leaf overflows when the bytes held back go there. -/
def RestTooLong (E : Env) (pre total : List U8) (n : Nat) : Prop :=
  ∃ i : Fin 8, TooLongO E (64 * n) (pre ++ leafInput i (total.drop (512 * n)))

/-- What leaf `i` has hashed after `n` rows. -/
abbrev leafN (c : Fin 8 → Cfg) (pre total : List U8) (n : Nat) (i : Fin 8) : Cfg :=
  rowCfg (c i) pre (leafInput i (total.take (512 * n))) n

/-- The first piece of the buffer for leaf `i`. -/
theorem first_ends {E : Env} {c : Fin 8 → Cfg} {pre total : List U8} {n : Nat} {s : State}
    (r : Rows E c pre total n s.leaves) (h : Held total n total.length s)
    (i : Fin 8) (k : Fin 16) (hk : k.val = i.val) (b : Nat)
    (hb : b = s.buflen.toNat - 64 * k.val) :
    Ends (State.updateChunk E s.leaves[i] s.buf k b) (RestTooLong E pre total n) (fun lf =>
      RepO E (leafN c pre total n i) (64 * n)
        (pre ++ ((total.drop (512 * n)).drop (64 * i.val)).take 64) lf) := by
  unfold State.updateChunk
  simp only []
  rw [chunk_list h k b hb, hk]
  refine (update_endsO ⟨0, r.weak i, by omega⟩ _).mono (fun ht => ⟨i, ht.1, ?_⟩) (fun _ h => h)
  rw [rest_two h i, ← List.append_assoc, List.length_append]
  have := ht.2
  omega

/-- The second piece of the buffer for leaf `i`. -/
theorem second_ends {E : Env} {c : Fin 8 → Cfg} {pre total : List U8} {n : Nat} {s : State}
    (h : Held total n total.length s) (i : Fin 8) (k : Fin 16)
    (hk : k.val = i.val + 8) (b : Nat) (hb : b = s.buflen.toNat - 64 * k.val) (lf : Blake2s.State)
    (hlf : RepO E (leafN c pre total n i) (64 * n)
        (pre ++ ((total.drop (512 * n)).drop (64 * i.val)).take 64) lf) :
    Ends (State.updateChunk E lf s.buf k b) (RestTooLong E pre total n) (fun lf =>
      RepO E (leafN c pre total n i) (64 * n) (pre ++ leafInput i (total.drop (512 * n))) lf) := by
  unfold State.updateChunk
  simp only []
  rw [chunk_list h k b hb, hk]
  have e : pre ++ leafInput i (total.drop (512 * n)) = _ :=
    congrArg (pre ++ ·) (rest_two h i)
  rw [← List.append_assoc] at e
  refine (update_endsO hlf _).mono (fun ht => ⟨i, ?_⟩) (fun _ h => ?_)
  · rw [e]; exact ht
  · rw [e]; exact h

/-- The digest of leaf `i` after `n` rows. -/
def Leaf (c : Fin 8 → Cfg) (pre total : List U8) (n : Nat) (i : Fin 8) : List U8 :=
  Spec.digestBytes (Spec.absorb (leafN c pre total n i).h0 (64 * n)
    (pre ++ leafInput i (total.drop (512 * n))) (c i).lastNode) 32

/-- Finishing a leaf and feeding the digest to the root. -/
theorem leaf_root_ends {E : Env} {c : Fin 8 → Cfg} {cr : Cfg} {pre total data : List U8} {n : Nat}
    (i : Fin 8) {lf root : Blake2s.State}
    (hlf : RepO E (leafN c pre total n i) (64 * n) (pre ++ leafInput i (total.drop (512 * n))) lf)
    (h32 : (c i).hashLength = 32) (hroot : Rep E cr data root) (hd : data.length + 32 ≤ 256) :
    ∃ s' h b, lf.finalize E = .ok (s', h) ∧ h.asBytes = .ok b ∧
      ∃ root', root.update E b = .ok root' ∧ Rep E cr (data ++ Leaf c pre total n i) root' ∧
        (data ++ Leaf c pre total n i).length = data.length + 32 := by
  obtain ⟨s', h, e, -, hb, hl, -⟩ := finalize_okO hlf
  have ha : h.asBytes = .ok (Leaf c pre total n i) := by
    have hl32 : h.len = 32 := hl.trans h32
    rw [asBytes_ok h (by rw [hl32]; decide), hb, hl32, digestBytes_take _ _ (by decide)]
    rfl
  have hlen : (data ++ Leaf c pre total n i).length = data.length + 32 := by
    rw [List.length_append, Leaf, digestBytes_length _ _ (by decide)]
  refine ⟨s', h, _, e, ha, ?_⟩
  obtain ⟨root', e1, r1⟩ := (Blake2s.update_ends hroot (Leaf c pre total n i)).elim (by
    rintro ⟨_, h⟩
    rw [hlen] at h
    omega)
  exact ⟨root', e1, r1, hlen⟩

theorem _root_.Blake2s.RepO.fits {E : Env} {c : Cfg} {off : Nat} {data : List U8} {s : Blake2s.State}
    (r : RepO E c off data s) : ¬ TooLongO E off data := by
  obtain ⟨k, w, -⟩ := r
  rintro ⟨h1, h2⟩
  have := w.fits h1
  omega

theorem keeps_bind {α : Type} {s : State} {r : R α} {f : α → R (State × Hash)}
    (hf : ∀ a y, f a = .ok y → y.1 = s) : ∀ y, (r >>= f) = .ok y → y.1 = s := by
  intro y h
  cases r with
  | error e => cases h
  | ok a => exact hf a y h

theorem finalize_keeps {E : Env} {s s' : State} {d : Hash} (h : s.finalize E = .ok (s', d)) : s' = s := by
  suffices k : ∀ y, s.finalize E = .ok y → y.1 = s from k _ h
  clear h
  unfold State.finalize
  iterate 41 refine keeps_bind fun _ => ?_
  intro y h
  cases h
  rfl

theorem finalize_ends {E : Env} {c : Fin 8 → Cfg} {cr : Cfg} {fn : Compress8Fn}
    {pre total : List U8} {n : Nat} {s : State} (r : SpRep E c cr fn pre total n s)
    (h32 : ∀ i, (c i).hashLength = 32) :
    Ends (s.finalize E) (RestTooLong E pre total n)
      (fun x => x.1 = s ∧ cr.hashes ((List.finRange 8).flatMap (Leaf c pre total n)) x.2 ∧
        ¬ RestTooLong E pre total n) := by
  obtain ⟨rows, held, hn, root, -, -⟩ := r
  have f := first_ends rows held
  have g := second_ends (E := E) (c := c) (pre := pre) held
  unfold State.finalize
  simp only [Nat.sub_sub]
  refine (f 0 0 rfl _ rfl).bind ?_; intro l0 r0
  refine (f 1 1 rfl _ rfl).bind ?_; intro l1 r1
  refine (f 2 2 rfl _ rfl).bind ?_; intro l2 r2
  refine (f 3 3 rfl _ rfl).bind ?_; intro l3 r3
  refine (f 4 4 rfl _ rfl).bind ?_; intro l4 r4
  refine (f 5 5 rfl _ rfl).bind ?_; intro l5 r5
  refine (f 6 6 rfl _ rfl).bind ?_; intro l6 r6
  refine (f 7 7 rfl _ rfl).bind ?_; intro l7 r7
  refine (g 0 8 rfl _ rfl l0 r0).bind ?_; intro l0 r0
  refine (g 1 9 rfl _ rfl l1 r1).bind ?_; intro l1 r1
  refine (g 2 10 rfl _ rfl l2 r2).bind ?_; intro l2 r2
  refine (g 3 11 rfl _ rfl l3 r3).bind ?_; intro l3 r3
  refine (g 4 12 rfl _ rfl l4 r4).bind ?_; intro l4 r4
  refine (g 5 13 rfl _ rfl l5 r5).bind ?_; intro l5 r5
  refine (g 6 14 rfl _ rfl l6 r6).bind ?_; intro l6 r6
  refine (g 7 15 rfl _ rfl l7 r7).bind ?_; intro l7 r7
  obtain ⟨s0, h0, b0, e0, a0, t0, u0, q0, n0⟩ := leaf_root_ends 0 r0 (h32 0) root (by simp)
  obtain ⟨s1, h1, b1, e1, a1, t1, u1, q1, n1⟩ := leaf_root_ends 1 r1 (h32 1) q0 (by rw [n0]; simp)
  obtain ⟨s2, h2, b2, e2, a2, t2, u2, q2, n2⟩ := leaf_root_ends 2 r2 (h32 2) q1
    (by rw [n1, n0]; simp)
  obtain ⟨s3, h3, b3, e3, a3, t3, u3, q3, n3⟩ := leaf_root_ends 3 r3 (h32 3) q2
    (by rw [n2, n1, n0]; simp)
  obtain ⟨s4, h4, b4, e4, a4, t4, u4, q4, n4⟩ := leaf_root_ends 4 r4 (h32 4) q3
    (by rw [n3, n2, n1, n0]; simp)
  obtain ⟨s5, h5, b5, e5, a5, t5, u5, q5, n5⟩ := leaf_root_ends 5 r5 (h32 5) q4
    (by rw [n4, n3, n2, n1, n0]; simp)
  obtain ⟨s6, h6, b6, e6, a6, t6, u6, q6, n6⟩ := leaf_root_ends 6 r6 (h32 6) q5
    (by rw [n5, n4, n3, n2, n1, n0]; simp)
  obtain ⟨s7, h7, b7, e7, a7, t7, u7, q7, n7⟩ := leaf_root_ends 7 r7 (h32 7) q6
    (by rw [n6, n5, n4, n3, n2, n1, n0]; simp)
  rw [e0, e1, e2, e3, e4, e5, e6, e7]
  simp only [bind, Except.bind]
  rw [a0]; simp only []; rw [u0]; simp only []
  rw [a1]; simp only []; rw [u1]; simp only []
  rw [a2]; simp only []; rw [u2]; simp only []
  rw [a3]; simp only []; rw [u3]; simp only []
  rw [a4]; simp only []; rw [u4]; simp only []
  rw [a5]; simp only []; rw [u5]; simp only []
  rw [a6]; simp only []; rw [u6]; simp only []
  rw [a7]; simp only []; rw [u7]; simp only []
  obtain ⟨s', h, e, -, hb, hl, -⟩ := finalize_ok q7
  rw [e]
  refine Ends.pure ⟨rfl, ⟨?_, hl⟩, ?_⟩
  rotate_left
  · rintro ⟨i, hi⟩
    match i with
    | 0 => exact r0.fits hi
    | 1 => exact r1.fits hi
    | 2 => exact r2.fits hi
    | 3 => exact r3.fits hi
    | 4 => exact r4.fits hi
    | 5 => exact r5.fits hi
    | 6 => exact r6.fits hi
    | 7 => exact r7.fits hi
  rw [hb]
  have ef : List.finRange 8 = [0, 1, 2, 3, 4, 5, 6, 7] := by decide
  rw [ef]
  simp only [List.flatMap_cons, List.flatMap_nil, List.append_nil, List.nil_append,
    List.append_assoc]

/-! ## `count` -/

theorem rows_count {E : Env} {c : Fin 8 → Cfg} {pre total : List U8} {n : Nat}
    {lf : Vector Blake2s.State 8} (r : Rows E c pre total n lf) (i : Fin 8) :
    lf[i].getCount = BitVec.ofNat 64 (pre.length + 64 * n) := by
  show lf[i].count = _
  rw [r.count i, Nat.add_comm]

theorem getCount_ends {E : Env} {c : Fin 8 → Cfg} {cr : Cfg} {fn : Compress8Fn}
    {pre total : List U8} {n : Nat} {s : State} (r : SpRep E c cr fn pre total n s) :
    Ends (s.getCount E) (E.overflowChecks = true ∧ 2 ^ 64 ≤ 8 * pre.length + total.length)
      (fun k => k = BitVec.ofNat 64 (8 * pre.length + total.length) ∧
        (E.overflowChecks = true → 8 * pre.length + total.length < 2 ^ 64)) := by
  obtain ⟨rows, held, -, -, -, -⟩ := r
  unfold State.getCount
  have k0 : s.leaves[0].getCount = _ := rows_count rows 0
  have k1 : s.leaves[1].getCount = _ := rows_count rows 1
  have k2 : s.leaves[2].getCount = _ := rows_count rows 2
  have k3 : s.leaves[3].getCount = _ := rows_count rows 3
  have k4 : s.leaves[4].getCount = _ := rows_count rows 4
  have k5 : s.leaves[5].getCount = _ := rows_count rows 5
  have k6 : s.leaves[6].getCount = _ := rows_count rows 6
  have k7 : s.leaves[7].getCount = _ := rows_count rows 7
  have hfit : E.overflowChecks = true → pre.length + 64 * n < 2 ^ 64 := by
    intro h
    have := (rows.weak 0).fits h
    omega
  rw [k0, k1, k2, k3, k4, k5, k6, k7]
  have hlen := held.len
  generalize hx : pre.length + 64 * n = x at hfit ⊢
  have step : ∀ a b, (E.overflowChecks = true → a < 2 ^ 64) → (E.overflowChecks = true → b < 2 ^ 64) →
      a + b ≤ 8 * pre.length + total.length →
      Ends (addChk E (BitVec.ofNat 64 a) (BitVec.ofNat 64 b))
        (E.overflowChecks = true ∧ 2 ^ 64 ≤ 8 * pre.length + total.length)
        (fun k => k = BitVec.ofNat 64 (a + b) ∧ (E.overflowChecks = true → a + b < 2 ^ 64)) := by
    intro a b ha hb hle
    by_cases ho : E.overflowChecks = true
    · exact (addChk_ends (w := 64) E a b ha (hb ho)).mono (fun h => ⟨ho, by omega⟩) (fun _ h => h)
    · have ho' : E.overflowChecks = false := by simpa using ho
      unfold addChk
      simp only [ho', Bool.false_and, Bool.false_eq_true, if_false]
      refine Ends.pure ⟨?_, by nofun⟩
      rw [BitVec.ofNat_add]
  refine (step x x hfit hfit (by omega)).bind ?_; rintro _ ⟨rfl, f1⟩
  refine (step _ x f1 hfit (by omega)).bind ?_; rintro _ ⟨rfl, f2⟩
  refine (step _ x f2 hfit (by omega)).bind ?_; rintro _ ⟨rfl, f3⟩
  refine (step _ x f3 hfit (by omega)).bind ?_; rintro _ ⟨rfl, f4⟩
  refine (step _ x f4 hfit (by omega)).bind ?_; rintro _ ⟨rfl, f5⟩
  refine (step _ x f5 hfit (by omega)).bind ?_; rintro _ ⟨rfl, f6⟩
  refine (step _ x f6 hfit (by omega)).bind ?_; rintro _ ⟨rfl, f7⟩
  have hb : s.buflen.setWidth 64 = BitVec.ofNat 64 s.buflen.toNat := by
    apply BitVec.eq_of_toNat_eq
    simp
  rw [hb]
  refine (step _ s.buflen.toNat f7 (fun _ => by have := s.buflen.isLt; omega) (by omega)).mono
    (fun h => h) ?_
  rintro _ ⟨rfl, f8⟩
  refine ⟨?_, fun h => by have := f8 h; omega⟩
  congr 1
  omega

end Blake2s.Sp
