import Verif.Proofs.StateFinal
import Verif.Proofs.Avx
import Verif.Model.Many
/-!
# `update8` and `finalize8`
-/

namespace Blake2s

/-- The selected 8-way routine may be executed on this CPU. -/
def Compress8Fn.Supported (E : Env) (f : Compress8Fn) : Prop :=
  f = .avx2 → E.x86 = true ∧ E.avx2 = true

theorem default_supported8 (E : Env) : (defaultCompressImpl E).compress8.Supported E := by
  unfold defaultCompressImpl Compress8Fn.Supported
  split
  · rename_i h
    simp only [Bool.and_eq_true] at h
    exact fun _ => ⟨h.1.1, h.2⟩
  · nofun

seal Portable.compress Portable.compress8 Avx2.compress8 in
theorem Compress8Fn.call_ok {E : Env} {f : Compress8Fn} (hf : f.Supported E)
    (h : Vector StateWords 8) (msg : Vector Block 8) (c : Vector U64 8) (lb ln : Vector U32 8) :
    ∃ r, f.call E h msg c lb ln = .ok r ∧
      ∀ i (hi : i < 8), r[i] = Portable.compress h[i] msg[i] c[i] lb[i] ln[i] := by
  refine ⟨Portable.compress8 h msg c lb ln, ?_, portable_compress8_get h msg c lb ln⟩
  cases f with
  | portable => rfl
  | avx2 =>
    obtain ⟨h1, h2⟩ := hf rfl
    simp only [Compress8Fn.call, h1, h2, Bool.and_self, if_true, avx_compress8]
    rfl

/-- One block straight from the input. -/
theorem Mid.step {E : Env} {c : Cfg} {total : List U8} {s : State} {input : List U8}
    (m : Mid E c total s input) (hi : 64 < input.length) :
    Ends (addChk E s.count (BitVec.ofNat 64 64)) (TooLong E total) (fun a =>
      ∀ (block : Block) (h : StateWords), block.toList = input.take 64 →
        h = Portable.compress s.h block a 0 0 →
        Mid E c total { s with count := a, h := h } (input.drop 64)) := by
  obtain ⟨⟨data, k, w, rfl, hk⟩, hm⟩ := m
  have hb : s.buflen.toNat = 0 := by
    rcases hm with h | h
    · rw [h] at hi; simp at hi
    · exact h
  rw [w.count]
  refine ((addChk_ends (w := 64) E data.length 64 w.fits (by decide)).mono
    (fun h => ⟨h.1, by simp; omega⟩) ?_)
  rintro a ⟨rfl, hfit⟩ block h hbk rfl
  have w' := w.block hb block _ hbk hfit
  refine ⟨⟨data ++ input.take 64, k + 1, w', ?_, fun _ => .inr ?_⟩, .inr hb⟩
  · rw [List.append_assoc, List.take_append_drop]
  · intro h
    have := congrArg List.length h
    simp at this; omega

theorem fin8_cases {P : Fin 8 → Prop} (h : ∀ i (hi : i < 8), P ⟨i, hi⟩) : ∀ i, P i :=
  fun i => h i.val i.isLt

theorem Ends.any {α : Type} {E : Env} {r : R α} {total : Fin 8 → List U8} {post : α → Prop}
    (i : Fin 8) (h : Ends r (TooLong E (total i)) post) :
    Ends r (∃ i, TooLong E (total i)) post := h.mono (fun h => ⟨i, h⟩) (fun _ h => h)

seal Portable.compress Portable.compress8 Avx2.compress8 in
theorem update8Loop_ends {E : Env} (fn : Compress8Fn) (hfn : fn.Supported E) (c : Fin 8 → Cfg)
    (total : Fin 8 → List U8) (fuel : Nat) (st : Vector State 8) (input : Vector (List U8) 8)
    (hf : input[0].length < fuel) (hm : ∀ i : Fin 8, Mid E (c i) (total i) st[i] input[i]) :
    Ends (update8Loop E fn fuel st input) (∃ i, TooLong E (total i))
      (fun r => ∀ i : Fin 8, Mid E (c i) (total i) r.1[i] r.2[i]) := by
  induction fuel generalizing st input with
  | zero => omega
  | succ fuel ih =>
    unfold update8Loop BLOCKBYTES
    split
    · rename_i hlen
      simp only [Bool.and_eq_true, decide_eq_true_eq] at hlen
      obtain ⟨⟨⟨⟨⟨⟨⟨l0, l1⟩, l2⟩, l3⟩, l4⟩, l5⟩, l6⟩, l7⟩ := hlen
      refine (Ends.any 0 ((hm 0).step l0)).bind ?_; intro c0 p0
      refine (Ends.any 1 ((hm 1).step l1)).bind ?_; intro c1 p1
      refine (Ends.any 2 ((hm 2).step l2)).bind ?_; intro c2 p2
      refine (Ends.any 3 ((hm 3).step l3)).bind ?_; intro c3 p3
      refine (Ends.any 4 ((hm 4).step l4)).bind ?_; intro c4 p4
      refine (Ends.any 5 ((hm 5).step l5)).bind ?_; intro c5 p5
      refine (Ends.any 6 ((hm 6).step l6)).bind ?_; intro c6 p6
      refine (Ends.any 7 ((hm 7).step l7)).bind ?_; intro c7 p7
      obtain ⟨b0, e0, h0⟩ := arrayRef_ok input[0] 0 64 (by omega)
      obtain ⟨b1, e1, h1⟩ := arrayRef_ok input[1] 0 64 (by omega)
      obtain ⟨b2, e2, h2⟩ := arrayRef_ok input[2] 0 64 (by omega)
      obtain ⟨b3, e3, h3⟩ := arrayRef_ok input[3] 0 64 (by omega)
      obtain ⟨b4, e4, h4⟩ := arrayRef_ok input[4] 0 64 (by omega)
      obtain ⟨b5, e5, h5⟩ := arrayRef_ok input[5] 0 64 (by omega)
      obtain ⟨b6, e6, h6⟩ := arrayRef_ok input[6] 0 64 (by omega)
      obtain ⟨b7, e7, h7⟩ := arrayRef_ok input[7] 0 64 (by omega)
      rw [e0, e1, e2, e3, e4, e5, e6, e7]
      simp only [bind, Except.bind]
      obtain ⟨r, er, hr⟩ := Compress8Fn.call_ok hfn
        #v[st[0].h, st[1].h, st[2].h, st[3].h, st[4].h, st[5].h, st[6].h, st[7].h]
        #v[b0, b1, b2, b3, b4, b5, b6, b7]
        #v[c0, c1, c2, c3, c4, c5, c6, c7]
        #v[0, 0, 0, 0, 0, 0, 0, 0]
        #v[0, 0, 0, 0, 0, 0, 0, 0]
      rw [er]
      simp only []
      rw [sliceFrom_ok _ _ (by omega), sliceFrom_ok _ _ (by omega), sliceFrom_ok _ _ (by omega),
        sliceFrom_ok _ _ (by omega), sliceFrom_ok _ _ (by omega), sliceFrom_ok _ _ (by omega),
        sliceFrom_ok _ _ (by omega), sliceFrom_ok _ _ (by omega)]
      simp only []
      apply ih
      · show (input[0].drop 64).length < fuel
        simp only [List.length_drop]; omega
      · apply fin8_cases
        intro i hi
        match i, hi with
        | 0, _ => exact p0 b0 r[0] h0 (hr 0 (by decide))
        | 1, _ => exact p1 b1 r[1] h1 (hr 1 (by decide))
        | 2, _ => exact p2 b2 r[2] h2 (hr 2 (by decide))
        | 3, _ => exact p3 b3 r[3] h3 (hr 3 (by decide))
        | 4, _ => exact p4 b4 r[4] h4 (hr 4 (by decide))
        | 5, _ => exact p5 b5 r[5] h5 (hr 5 (by decide))
        | 6, _ => exact p6 b6 r[6] h6 (hr 6 (by decide))
        | 7, _ => exact p7 b7 r[7] h7 (hr 7 (by decide))
    · exact Ends.pure hm

theorem update8_ends {E : Env} (c : Fin 8 → Cfg) (data : Fin 8 → List U8) (st : Vector State 8)
    (input : Vector (List U8) 8) (hr : ∀ i : Fin 8, Rep E (c i) (data i) st[i]) :
    Ends (update8 E st input) (∃ i : Fin 8, TooLong E (data i ++ input[i]))
      (fun r => ∀ i : Fin 8, Rep E (c i) (data i ++ input[i]) r[i]) := by
  have hp : ∀ i : Fin 8, Pre E (c i) (data i ++ input[i]) st[i] input[i] :=
    fun i => (hr i).pre _
  generalize ht : (fun i : Fin 8 => data i ++ input[i]) = total
  have hp' : ∀ i : Fin 8, Pre E (c i) (total i) st[i] input[i] := by
    rw [← ht]; exact hp
  suffices h : Ends (update8 E st input) (∃ i : Fin 8, TooLong E (total i))
      (fun r => ∀ i : Fin 8, Rep E (c i) (total i) r[i]) by
    rw [← ht] at h; exact h
  unfold update8
  have cb : ∀ i : Fin 8, Ends (st[i].compressBufferIfPossible E input[i]) (∃ i, TooLong E (total i))
      (fun r => Mid E (c i) (total i) r.1 r.2) := fun i =>
    Ends.any i ((compressBuffer_ends (hp' i)).mono (fun h => h) (fun _ h => h.1))
  refine (cb 0).bind ?_; rintro ⟨s0, i0⟩ m0
  refine (cb 1).bind ?_; rintro ⟨s1, i1⟩ m1
  refine (cb 2).bind ?_; rintro ⟨s2, i2⟩ m2
  refine (cb 3).bind ?_; rintro ⟨s3, i3⟩ m3
  refine (cb 4).bind ?_; rintro ⟨s4, i4⟩ m4
  refine (cb 5).bind ?_; rintro ⟨s5, i5⟩ m5
  refine (cb 6).bind ?_; rintro ⟨s6, i6⟩ m6
  refine (cb 7).bind ?_; rintro ⟨s7, i7⟩ m7
  refine (update8Loop_ends _ (default_supported8 E) c total _ #v[s0, s1, s2, s3, s4, s5, s6, s7]
    #v[i0, i1, i2, i3, i4, i5, i6, i7] (by show i0.length < i0.length + 1; omega) ?_).bind ?_
  · apply fin8_cases
    intro i hi
    match i, hi with
    | 0, _ => exact m0
    | 1, _ => exact m1
    | 2, _ => exact m2
    | 3, _ => exact m3
    | 4, _ => exact m4
    | 5, _ => exact m5
    | 6, _ => exact m6
    | 7, _ => exact m7
  · rintro ⟨st', in'⟩ hm
    have up : ∀ i : Fin 8, Ends (st'[i].update E in'[i]) (∃ i, TooLong E (total i))
        (fun s => Rep E (c i) (total i) s) := fun i => Ends.any i (update_pre (hm i).1)
    refine (up 0).bind ?_; intro s0 r0
    refine (up 1).bind ?_; intro s1 r1
    refine (up 2).bind ?_; intro s2 r2
    refine (up 3).bind ?_; intro s3 r3
    refine (up 4).bind ?_; intro s4 r4
    refine (up 5).bind ?_; intro s5 r5
    refine (up 6).bind ?_; intro s6 r6
    refine (up 7).bind ?_; intro s7 r7
    refine Ends.pure (fin8_cases ?_)
    intro i hi
    match i, hi with
    | 0, _ => exact r0
    | 1, _ => exact r1
    | 2, _ => exact r2
    | 3, _ => exact r3
    | 4, _ => exact r4
    | 5, _ => exact r5
    | 6, _ => exact r6
    | 7, _ => exact r7

seal Portable.compress Portable.compress8 Avx2.compress8 stateWordsToBytes in
theorem finalize8_ok {E : Env} (st : Vector State 8)
    (hs : ∀ i : Fin 8, st[i].compressFn.Supported E) :
    ∃ st' hashes, finalize8 E st = .ok (st', hashes) ∧
      ∀ i : Fin 8, st[i].finalize E = .ok (st'[i], hashes[i]) := by
  unfold finalize8
  simp only []
  obtain ⟨r, er, hr⟩ := Compress8Fn.call_ok (default_supported8 E)
    #v[st[0].h, st[1].h, st[2].h, st[3].h, st[4].h, st[5].h, st[6].h, st[7].h]
    #v[State.zeroTail st[0].buf st[0].buflen, State.zeroTail st[1].buf st[1].buflen,
       State.zeroTail st[2].buf st[2].buflen, State.zeroTail st[3].buf st[3].buflen,
       State.zeroTail st[4].buf st[4].buflen, State.zeroTail st[5].buf st[5].buflen,
       State.zeroTail st[6].buf st[6].buflen, State.zeroTail st[7].buf st[7].buflen]
    #v[st[0].count, st[1].count, st[2].count, st[3].count, st[4].count, st[5].count, st[6].count,
       st[7].count]
    #v[~~~ 0, ~~~ 0, ~~~ 0, ~~~ 0, ~~~ 0, ~~~ 0, ~~~ 0, ~~~ 0]
    #v[State.flagWord st[0].lastNode, State.flagWord st[1].lastNode, State.flagWord st[2].lastNode,
       State.flagWord st[3].lastNode, State.flagWord st[4].lastNode, State.flagWord st[5].lastNode,
       State.flagWord st[6].lastNode, State.flagWord st[7].lastNode]
  rw [er]
  refine ⟨_, _, rfl, fin8_cases ?_⟩
  intro i hi
  have hfin : ∀ (s : State) (h : StateWords), s.compressFn.Supported E →
      h = Portable.compress s.h (State.zeroTail s.buf s.buflen) s.count (~~~ 0)
        (State.flagWord s.lastNode) →
      s.finalize E = .ok ({ s with buf := State.zeroTail s.buf s.buflen },
        { bytes := stateWordsToBytes h, len := s.hashLength }) := by
    intro s h hsup hh
    unfold State.finalize
    simp only []
    rw [CompressFn.call_ok hsup, hh]
    rfl
  match i, hi with
  | 0, _ => exact hfin _ _ (hs 0) (hr 0 (by decide))
  | 1, _ => exact hfin _ _ (hs 1) (hr 1 (by decide))
  | 2, _ => exact hfin _ _ (hs 2) (hr 2 (by decide))
  | 3, _ => exact hfin _ _ (hs 3) (hr 3 (by decide))
  | 4, _ => exact hfin _ _ (hs 4) (hr 4 (by decide))
  | 5, _ => exact hfin _ _ (hs 5) (hr 5 (by decide))
  | 6, _ => exact hfin _ _ (hs 6) (hr 6 (by decide))
  | 7, _ => exact hfin _ _ (hs 7) (hr 7 (by decide))

end Blake2s
