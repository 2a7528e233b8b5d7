import Verif.Proofs.Eight
import Verif.Proofs.LeafInput
import Verif.Model.Blake2sp
/-!
# The representation invariant of `blake2sp::State`
-/

namespace Blake2s.Sp

open Spec.Sp (leafInput)

/-- The configuration of a leaf that has hashed the `n` blocks of `data`, with a counter that started at
`pre.length`. -/
def rowCfg (c : Cfg) (pre data : List U8) (n : Nat) : Cfg :=
  { c with h0 := Spec.chain c.h0 pre.length data n }

/-- The eight leaves have hashed the first `n` rows of `total`, while the key block `pre` waits in their
buffers. -/
structure Rows (E : Env) (c : Fin 8 → Cfg) (pre total : List U8) (n : Nat)
    (leaves : Vector Blake2s.State 8) : Prop where
  weak : ∀ i : Fin 8, WeakO E (rowCfg (c i) pre (leafInput i (total.take (512 * n))) n) (64 * n) pre 0
    leaves[i]
  le : 512 * n ≤ total.length

/-- With overflow checks on, the leaf counters cannot take `n` rows. -/
def Overrun (E : Env) (pre : List U8) (n : Nat) : Prop :=
  E.overflowChecks = true ∧ 2 ^ 64 ≤ pre.length + 64 * n

theorem Overrun.mono {E : Env} {pre : List U8} {n m : Nat} (h : Overrun E pre n) (hn : n ≤ m) :
    Overrun E pre m := ⟨h.1, by have := h.2; omega⟩

theorem debugAssert_true (E : Env) {c : Bool} (h : c = true) : debugAssert E c = .ok () := by
  subst h; cases e : E.debugAssertions <;> simp [debugAssert, e, pure, Except.pure]

theorem debugAssert_buflen {E : Env} {x : U8} (h : E.debugAssertions = true → x = 0) :
    debugAssert E (decide (0 = x)) = .ok () := by
  cases e : E.debugAssertions with
  | true => rw [h e]; exact debugAssert_true E rfl
  | false => simp [debugAssert, e, pure, Except.pure]

theorem subArray_toList {n : Nat} (v : Vector U8 n) (off len : Nat) (h : off + len ≤ n) :
    (subArray v off len h).toList = (v.toList.drop off).take len := by
  apply List.ext_getElem
  · simp; omega
  · intro i h1 h2
    simp [subArray]

theorem Rows.buflen {E : Env} {c : Fin 8 → Cfg} {pre total : List U8} {n : Nat}
    {lf : Vector Blake2s.State 8} (r : Rows E c pre total n lf) (i : Fin 8) :
    lf[i].buflen.toNat = pre.length := by
  have h := (r.weak i).len
  omega

theorem Rows.count {E : Env} {c : Fin 8 → Cfg} {pre total : List U8} {n : Nat}
    {lf : Vector Blake2s.State 8} (r : Rows E c pre total n lf) (i : Fin 8) :
    lf[i].count = BitVec.ofNat 64 (64 * n + pre.length) := (r.weak i).count

theorem Rows.counts {E : Env} {c : Fin 8 → Cfg} {pre total : List U8} {n : Nat}
    {lf : Vector Blake2s.State 8} (r : Rows E c pre total n lf) (i j : Fin 8) :
    lf[i].count = lf[j].count := by rw [r.count, r.count]

theorem Rows.notOverrun {E : Env} {c : Fin 8 → Cfg} {pre total : List U8} {n : Nat}
    {lf : Vector Blake2s.State 8} (r : Rows E c pre total n lf) : ¬ Overrun E pre n := by
  rintro ⟨h1, h2⟩
  have := (r.weak 0).fits h1
  omega

theorem leafInput_take_le (i : Fin 8) (n : Nat) (total : List U8) (h : 512 * n ≤ total.length) :
    64 * n ≤ (leafInput i total).length := by
  conv => rhs; rw [← List.take_append_drop (512 * n) total]
  rw [Spec.Sp.leafInput_append i n _ _ (by simp; omega), List.length_append,
    Spec.Sp.leafInput_rows_length i n total h]
  omega

/-- One more row for leaf `i`. -/
theorem Rows.step {E : Env} {c : Fin 8 → Cfg} {pre total : List U8} {n : Nat}
    {lf : Vector Blake2s.State 8} (r : Rows E c pre total n lf) (hn : 512 * (n + 1) ≤ total.length)
    (i : Fin 8) :
    Ends (addChk E lf[i].count (BitVec.ofNat 64 64)) (Overrun E pre (n + 1)) (fun a =>
      ∀ (row : Vector U8 512) (block : Block) (h : StateWords),
        row.toList = (total.drop (512 * n)).take 512 →
        block.toList = (row.toList.drop (64 * i)).take 64 →
        h = Portable.compress lf[i].h block a 0 0 →
        WeakO E (rowCfg (c i) pre (leafInput i (total.take (512 * (n + 1)))) (n + 1)) (64 * (n + 1)) pre 0
          { lf[i] with count := a, h := h }) := by
  have w := r.weak i
  rw [w.count]
  refine ((addChk_ends (w := 64) E _ 64 w.fits (by decide)).mono (fun h => ⟨h.1, ?_⟩) ?_)
  · have := h.2
    omega
  · rintro a ⟨rfl, hfit⟩ row block h hrow hbk rfl
    rw [hrow] at hbk
    have hlen := Spec.Sp.leafInput_rows_length i n total r.le
    have hb64 : ((((total.drop (512 * n)).take 512).drop (64 * i)).take 64).length = 64 := by
      rw [← hbk]; simp
    refine ⟨w.len, w.le, ?_, w.buf, ?_, ?_, w.fn, w.sup, w.ln, w.hl⟩
    · have hc := compress_spec lf[i].h block (64 * n + pre.length + 64) false false
      have hf : State.flagWord false = 0 := rfl
      rw [hf] at hc
      show toFn (Portable.compress _ _ _ _ _) = Spec.chain (c i).h0 pre.length _ (n + 1)
      rw [hc, w.h, Spec.Sp.leafInput_row i n total hn]
      show Spec.F (Spec.chain (c i).h0 pre.length _ n) _ _ _ _ =
        Spec.F (Spec.chain (c i).h0 pre.length _ n) _ _ _ _
      rw [Spec.chain_append _ _ _ _ n (by omega), List.drop_append_of_le_length (by omega),
        List.drop_of_length_le (l := leafInput _ _) (by omega), List.nil_append,
        List.take_of_length_le (i := 64) (by omega), hbk,
        show 64 * n + pre.length + 64 = pre.length + 64 * (n + 1) by omega]
    · show BitVec.ofNat 64 _ = BitVec.ofNat 64 _
      rw [show 64 * n + pre.length + 64 = 64 * (n + 1) + pre.length by omega]
    · intro h
      have := hfit h
      omega

seal Portable.compress Portable.compress8 Avx2.compress8 in
theorem compress8_ends {E : Env} {c : Fin 8 → Cfg} {pre total : List U8} {n : Nat}
    {lf : Vector Blake2s.State 8} {fn : Compress8Fn} (hfn : fn.Supported E)
    (r : Rows E c pre total n lf) (hd : E.debugAssertions = true → pre = []) (hn : 512 * (n + 1) ≤ total.length) (row : Vector U8 512)
    (hrow : row.toList = (total.drop (512 * n)).take 512) :
    Ends (State.compress8 E row lf fn) (Overrun E pre (n + 1))
      (fun lf' => Rows E c pre total (n + 1) lf') := by
  unfold State.compress8
  have hb : ∀ i : Fin 8, debugAssert E (decide (0 = lf[i].buflen)) = .ok () := fun i =>
    debugAssert_buflen (fun h => BitVec.eq_of_toNat_eq (by rw [r.buflen i, hd h]; rfl))
  have hc : ∀ i : Fin 8, debugAssert E (decide (lf[0].count = lf[i].count)) = .ok () := fun i =>
    debugAssert_true E (decide_eq_true (r.counts 0 i))
  have b0 : debugAssert E (decide (0 = lf[0].buflen)) = .ok () := hb 0
  have b1 : debugAssert E (decide (0 = lf[1].buflen)) = .ok () := hb 1
  have b2 : debugAssert E (decide (0 = lf[2].buflen)) = .ok () := hb 2
  have b3 : debugAssert E (decide (0 = lf[3].buflen)) = .ok () := hb 3
  have b4 : debugAssert E (decide (0 = lf[4].buflen)) = .ok () := hb 4
  have b5 : debugAssert E (decide (0 = lf[5].buflen)) = .ok () := hb 5
  have b6 : debugAssert E (decide (0 = lf[6].buflen)) = .ok () := hb 6
  have b7 : debugAssert E (decide (0 = lf[7].buflen)) = .ok () := hb 7
  have c1 : debugAssert E (decide (lf[0].count = lf[1].count)) = .ok () := hc 1
  have c2 : debugAssert E (decide (lf[0].count = lf[2].count)) = .ok () := hc 2
  have c3 : debugAssert E (decide (lf[0].count = lf[3].count)) = .ok () := hc 3
  have c4 : debugAssert E (decide (lf[0].count = lf[4].count)) = .ok () := hc 4
  have c5 : debugAssert E (decide (lf[0].count = lf[5].count)) = .ok () := hc 5
  have c6 : debugAssert E (decide (lf[0].count = lf[6].count)) = .ok () := hc 6
  have c7 : debugAssert E (decide (lf[0].count = lf[7].count)) = .ok () := hc 7
  rw [b0, b1, b2, b3, b4, b5, b6, b7, c1, c2, c3, c4, c5, c6, c7]
  refine (r.step hn 0).bind ?_; intro k0 p0
  refine (r.step hn 1).bind ?_; intro k1 p1
  refine (r.step hn 2).bind ?_; intro k2 p2
  refine (r.step hn 3).bind ?_; intro k3 p3
  refine (r.step hn 4).bind ?_; intro k4 p4
  refine (r.step hn 5).bind ?_; intro k5 p5
  refine (r.step hn 6).bind ?_; intro k6 p6
  refine (r.step hn 7).bind ?_; intro k7 p7
  obtain ⟨h, er, hr⟩ := Compress8Fn.call_ok hfn
    #v[lf[0].h, lf[1].h, lf[2].h, lf[3].h, lf[4].h, lf[5].h, lf[6].h, lf[7].h]
    #v[subArray row 0 64, subArray row 64 64, subArray row 128 64, subArray row 192 64,
       subArray row 256 64, subArray row 320 64, subArray row 384 64, subArray row 448 64]
    #v[k0, k1, k2, k3, k4, k5, k6, k7]
    #v[0, 0, 0, 0, 0, 0, 0, 0]
    #v[0, 0, 0, 0, 0, 0, 0, 0]
  rw [er]
  refine Ends.pure ⟨fin8_cases ?_, hn⟩
  intro i hi
  match i, hi with
  | 0, _ =>
    exact p0 row (subArray row 0 64) h[0] hrow
      (subArray_toList row 0 64 (by decide)) (hr 0 (by decide))
  | 1, _ =>
    exact p1 row (subArray row 64 64) h[1] hrow
      (subArray_toList row 64 64 (by decide)) (hr 1 (by decide))
  | 2, _ =>
    exact p2 row (subArray row 128 64) h[2] hrow
      (subArray_toList row 128 64 (by decide)) (hr 2 (by decide))
  | 3, _ =>
    exact p3 row (subArray row 192 64) h[3] hrow
      (subArray_toList row 192 64 (by decide)) (hr 3 (by decide))
  | 4, _ =>
    exact p4 row (subArray row 256 64) h[4] hrow
      (subArray_toList row 256 64 (by decide)) (hr 4 (by decide))
  | 5, _ =>
    exact p5 row (subArray row 320 64) h[5] hrow
      (subArray_toList row 320 64 (by decide)) (hr 5 (by decide))
  | 6, _ =>
    exact p6 row (subArray row 384 64) h[6] hrow
      (subArray_toList row 384 64 (by decide)) (hr 6 (by decide))
  | 7, _ =>
    exact p7 row (subArray row 448 64) h[7] hrow
      (subArray_toList row 448 64 (by decide)) (hr 7 (by decide))

/-- More data does not concern the rows already hashed. -/
theorem Rows.append {E : Env} {c : Fin 8 → Cfg} {pre total : List U8} {n : Nat}
    {lf : Vector Blake2s.State 8} (r : Rows E c pre total n lf) (more : List U8) :
    Rows E c pre (total ++ more) n lf := by
  refine ⟨fun i => ?_, by have := r.le; simp; omega⟩
  rw [List.take_append_of_le_length r.le]
  exact r.weak i

/-- The buffer of a BLAKE2sp state: everything after the rows already hashed, up to `m` bytes. -/
structure Held (total : List U8) (n m : Nat) (s : State) : Prop where
  len : m = 512 * n + s.buflen.toNat
  le : s.buflen.toNat ≤ 1024
  buf : s.buf.toList.take s.buflen.toNat = (total.take m).drop (512 * n)
  lem : m ≤ total.length

/-- The invariant of a BLAKE2sp state between API calls, after `n` rows. -/
structure SpRep (E : Env) (c : Fin 8 → Cfg) (cr : Cfg) (fn : Compress8Fn) (pre total : List U8) (n : Nat)
    (s : State) : Prop where
  rows : Rows E c pre total n s.leaves
  held : Held total n total.length s
  more : 0 < n → 448 < s.buflen.toNat
  root : Rep E cr [] s.root
  fnEq : s.compress8Fn = fn
  sup : fn.Supported E

theorem fillBuf_ok {E : Env} {total : List U8} {n m : Nat} {s : State} (h : Held total n m s)
    (input : List U8) (hi : input = total.drop m) :
    ∃ s' t, s.fillBuf E input = .ok (s', input.drop t) ∧ t = min (1024 - s.buflen.toNat) input.length ∧
      Held total n (m + t) s' ∧ s'.buflen.toNat = s.buflen.toNat + t ∧ s'.leaves = s.leaves ∧
      s'.root = s.root ∧ s'.compress8Fn = s.compress8Fn := by
  unfold State.fillBuf
  have hle := h.le
  rw [usizeSub_ok _ _ hle]
  simp only [bind, Except.bind]
  generalize ht : min (1024 - s.buflen.toNat) input.length = t
  have ht1 : t ≤ input.length := by omega
  rw [sliceTo_ok _ _ ht1]
  simp only []
  obtain ⟨v, e, hv⟩ := copyFromSlice_ok s.buf s.buflen.toNat (s.buflen.toNat + t) (input.take t)
    (by omega) (by omega) (by simp; omega)
  rw [e]
  simp only []
  have hbl : addChk E s.buflen (BitVec.ofNat 16 t) = .ok (BitVec.ofNat 16 (s.buflen.toNat + t)) := by
    have h1 := addChk_ends (w := 16) E s.buflen.toNat t (fun _ => s.buflen.isLt) (by omega)
    obtain ⟨a, h2, h3, _⟩ := h1.elim (by rintro ⟨_, h⟩; omega)
    rw [BitVec.ofNat_toNat, BitVec.setWidth_eq] at h2
    rw [h2, h3]
  rw [hbl]
  simp only []
  rw [sliceFrom_ok _ _ ht1]
  have hbn : (BitVec.ofNat 16 (s.buflen.toNat + t)).toNat = s.buflen.toNat + t := by
    simp; omega
  have hlm := h.lem
  have hlen := h.len
  refine ⟨_, t, rfl, rfl, ⟨?_, ?_, ?_, ?_⟩, hbn, rfl, rfl, rfl⟩
  · simp only [hbn]; omega
  · simp only [hbn]; omega
  · simp only [hbn, hv]
    have h1 : s.buf.toList.take s.buflen.toNat ++ input.take t =
        (total.take (m + t)).drop (512 * n) := by
      rw [h.buf, hi, List.take_add, List.drop_append_of_le_length (by simp; omega)]
    rw [h1, List.take_append_of_le_length (by simp [hi] at ht1 ⊢; omega)]
    rw [List.take_of_length_le (by simp [hi] at ht1 ⊢; omega)]
  · simp [hi] at ht1; omega

end Blake2s.Sp
