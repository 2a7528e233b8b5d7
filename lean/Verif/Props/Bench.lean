import Verif.Model.Bench
import Verif.Proofs.Tests
import Verif.Props.Simd
import Verif.Props.Sp
/-!
# C47: the benchmark programs

What the benchmarks measure is what their names say, for any inputs, any number of iterations, on every
platform and in every build profile; and except for one of them, they only run instructions that the CPU
has. Also the public function `benchmarks::compress8_transposed_all_avx2`, for C08.
-/

namespace Blake2s

open X86

/-- Message vectors as the `transposed_all` benchmark makes them, all bytes equal to 2. -/
theorem bench_message (i : Fin 8) (j : Fin 16) :
    lane 32 i.val (Vector.replicate 16 (mm256_set1_epi32 0x02020202))[j] =
      Spec.blockWords (Vector.replicate 64 (2 : U8)).toList j := by
  revert i j
  decide +kernel

/-- Its counters, whose bytes are 3 and 4. -/
theorem bench_count (i : Fin 8) :
    lane 32 i.val (mm256_set1_epi32 0x03030303) = (0x0404040403030303 : U64).setWidth 32 ∧
      lane 32 i.val (mm256_set1_epi32 0x04040404) = ((0x0404040403030303 : U64) >>> 32).setWidth 32 := by
  revert i
  decide +kernel

/-- C08: `compress8_transposed_all`, for message vectors that hold word `j` of block `i` in lane `i` of
vector `j`: each lane is one separate portable compression. -/
theorem C08_transposed_all (h_vecs : Vector M256 8) (msg_vecs : Vector M256 16)
    (count_low count_high lastblock lastnode : M256) (i : Nat) (hi : i < 8) (msg : Block)
    (hm : ∀ j : Fin 16, lane 32 i msg_vecs[j] = Spec.blockWords msg.toList j) (count : U64)
    (hc : lane 32 i count_low = count.setWidth 32 ∧ lane 32 i count_high = (count >>> 32).setWidth 32) :
    (Avx2.compress8Transposed h_vecs msg_vecs count_low count_high lastblock lastnode).map (lane 32 i) =
      Portable.compress (h_vecs.map (lane 32 i)) msg count (lane 32 i lastblock) (lane 32 i lastnode) := by
  have hw : msg_vecs.map (lane 32 i) = Portable.msgWords msg := by
    apply toFn_injective
    rw [toFn_msgWords]
    funext j
    rw [← hm j, toFn, Fin.getElem_fin, Vector.getElem_map]
    rfl
  rw [lane_compress8 _ _ _ _ _ _ _ hi, compress_eq_core, hw, hc.1, hc.2]

example (h : Vector M256 8) (lastblock lastnode : M256) :
    (Avx2.compress8Transposed h (Vector.replicate 16 (mm256_set1_epi32 0x02020202)) (mm256_set1_epi32 0x03030303)
      (mm256_set1_epi32 0x04040404) lastblock lastnode).map (lane 32 5) =
    Portable.compress (h.map (lane 32 5)) (Vector.replicate 64 2) 0x0404040403030303 (lane 32 5 lastblock)
      (lane 32 5 lastnode) :=
  C08_transposed_all h _ _ _ lastblock lastnode 5 (by decide) _ (bench_message 5) _ (bench_count 5)

namespace Bench

/-- `f` applied `n` times. -/
def times {α : Type} (f : α → α) : Nat → α → α
  | 0, a => a
  | n + 1, a => times f n (f a)

/-- The compression that the benchmarks run: counter 0 and no flags. -/
def step (block : Block) (h : Fin 8 → U32) : Fin 8 → U32 :=
  Spec.F h (Spec.blockWords block.toList) 0 false false

theorem iter_ok {α β : Type} {body : α → R α} (see : α → β) {f : β → β}
    (hb : ∀ a, ∃ b, body a = .ok b ∧ see b = f (see a)) (n : Nat) (a : α) :
    ∃ b, iter body n a = .ok b ∧ see b = times f n (see a) := by
  induction n generalizing a with
  | zero => exact ⟨a, rfl, rfl⟩
  | succ n ih =>
    obtain ⟨b, e, h⟩ := hb a
    obtain ⟨c, e', h'⟩ := ih b
    refine ⟨c, ?_, by rw [h', h]; rfl⟩
    unfold iter
    rw [e]
    exact e'

theorem times_at {ι α : Type} (f : ι → α → α) (n : Nat) (g : ι → α) (i : ι) :
    times (fun a i => f i (a i)) n g i = times (f i) n (g i) := by
  induction n generalizing g with
  | zero => rfl
  | succ n ih => exact ih _

theorem zero_step (h : StateWords) (block : Block) :
    (fun j : Fin 8 => (Portable.compress h block 0 0 0)[j]) = step block fun j : Fin 8 => h[j] :=
  compress_spec h block 0 false false

/-- The words of the eight states, state by state. -/
def words8 (h : Vector StateWords 8) : Fin 8 → Fin 8 → U32 := fun i j => h[i][j]

/-- One compression of each of eight states. -/
def step8 (block : Vector Block 8) (h : Fin 8 → Fin 8 → U32) : Fin 8 → Fin 8 → U32 :=
  fun i => step block[i] (h i)

theorem zero_step8 {h r : Vector StateWords 8} {block : Vector Block 8}
    (hr : ∀ i (hi : i < 8), r[i] = Portable.compress h[i] block[i] 0 0 0) :
    words8 r = step8 block (words8 h) := by
  funext i
  show (fun j : Fin 8 => r[i][j]) = _
  rw [show r[i] = _ from hr i.val i.isLt]
  exact zero_step h[i] block[i]

/-! ## The compression functions -/

/-- C47: the two single compression benchmarks apply the function F of RFC 7693 as often as they iterate;
the SSE4.1 one if the CPU has SSE4.1. -/
theorem C47_compress (E : Env) (n : Nat) (h : StateWords) (block : Block) :
    (∃ r, portableCompress E n h block = .ok r ∧
      (fun j : Fin 8 => r[j]) = times (step block) n (fun j : Fin 8 => h[j])) ∧
    (E.x86 = true → E.sse41 = true → ∃ r, sse41Compress E n h block = .ok r ∧
      (fun j : Fin 8 => r[j]) = times (step block) n (fun j : Fin 8 => h[j])) := by
  constructor
  · exact iter_ok (fun a : StateWords => fun j : Fin 8 => a[j]) (fun a => ⟨_, rfl, zero_step a block⟩) n h
  · intro h1 h2
    refine iter_ok (fun a : StateWords => fun j : Fin 8 => a[j]) (fun a => ⟨_, ?_, zero_step a block⟩) n h
    rw [CompressFn.call_ok (fun _ => ⟨h1, h2⟩)]

/-- On a CPU with SSE4.1, the two benchmarks end with the same words. -/
example (h : StateWords) (block : Block) : ∃ r r', portableCompress debugAvx2 1000 h block = .ok r ∧
    sse41Compress debugAvx2 1000 h block = .ok r' ∧ (fun j : Fin 8 => r[j]) = fun j : Fin 8 => r'[j] := by
  obtain ⟨⟨r, e, h1⟩, h2⟩ := C47_compress debugAvx2 1000 h block
  obtain ⟨r', e', h2⟩ := h2 rfl rfl
  exact ⟨r, r', e, e', h1.trans h2.symm⟩

/-- C47: the 8-way benchmarks apply F to each of the eight states as often as they iterate; the AVX2 ones
return at once if the CPU has no AVX2. -/
theorem C47_compress8 (E : Env) (n : Nat) (h : Vector StateWords 8) (block : Vector Block 8) :
    (∃ r, portableCompress8 E n h block = .ok r ∧ words8 r = times (step8 block) n (words8 h)) ∧
    (∃ r, avx2Compress8 E n h block = .ok r ∧
      words8 r = if E.x86 && E.avx2 then times (step8 block) n (words8 h) else words8 h) := by
  have z : ∀ i (hi : i < 8), (Vector.replicate 8 (0 : U64))[i] = 0 := fun i hi => Vector.getElem_replicate hi
  have z' : ∀ i (hi : i < 8), (Vector.replicate 8 (0 : U32))[i] = 0 := fun i hi => Vector.getElem_replicate hi
  constructor
  · refine iter_ok words8 (fun a => ⟨_, rfl, zero_step8 fun i hi => ?_⟩) n h
    rw [portable_compress8_get _ _ _ _ _ _ hi, z, z']
  · unfold avx2Compress8
    cases hx : E.x86 && E.avx2
    · exact ⟨h, rfl, rfl⟩
    · refine iter_ok words8 (fun a => ⟨Avx2.compress8 a block (Vector.replicate 8 0)
        (Vector.replicate 8 0) (Vector.replicate 8 0), ?_, zero_step8 fun i hi => ?_⟩) n h
      · simp only [Compress8Fn.call, hx, if_true]
        rfl
      · rw [avx_compress8_get _ _ _ _ _ _ hi, z, z']

/-- C47: the 4-way transposed benchmark; state `i` is lane `i` of the eight vectors. -/
theorem C47_compress4_transposed (E : Env) (n : Nat) (h : Vector M128 8) (msg : Vector Block 4) :
    ∃ r, sse41Compress4Transposed E n h msg = .ok r ∧ ∀ i : Fin 4,
      (fun j : Fin 8 => lane 32 i.val r[j]) =
        if E.x86 && E.sse41 then times (step msg[i]) n (fun j : Fin 8 => lane 32 i.val h[j])
        else fun j : Fin 8 => lane 32 i.val h[j] := by
  unfold sse41Compress4Transposed
  cases hx : E.x86 && E.sse41
  · exact ⟨h, rfl, fun _ => rfl⟩
  · have key := iter_ok (body := fun h => compress4TransposedCall E h msg 0 0 0 0)
      (fun (a : Vector M128 8) (i : Fin 4) (j : Fin 8) => lane 32 i.val a[j])
      (f := fun a i => step msg[i] (a i)) (fun a => ⟨Sse41.compress4Transposed a msg 0 0 0 0, ?_, ?_⟩) n h
    · obtain ⟨r, e, hr⟩ := key
      refine ⟨r, e, fun i => ?_⟩
      exact (congrFun hr i).trans
        (times_at (fun i => step msg[i]) n (fun (i : Fin 4) (j : Fin 8) => lane 32 i.val h[j]) i)
    · simp only [compress4TransposedCall, hx, if_true]
      rfl
    · funext i
      have hl := lane_compress4 a msg 0 0 0 0 i.val i.isLt
      have h0 : lane 32 i.val (0 : M128) = 0 := by
        match i with
        | 0 | 1 | 2 | 3 => rfl
      rw [h0] at hl
      have hs := zero_step (a.map (lane 32 i.val)) msg[i]
      rw [compress_eq_core] at hs
      refine Eq.trans ?_ (hs.trans ?_)
      · funext j
        have := congrArg (fun v : StateWords => v[j]) hl
        simp only [Fin.getElem_fin, Vector.getElem_map] at this
        exact this
      · congr 1
        funext j
        simp only [Fin.getElem_fin, Vector.getElem_map]

/-- C47: the vectorised 8-way benchmark; word `j` of state `i` is word `i` of row `j`. -/
theorem C47_compress8_vectorized (E : Env) (n : Nat) (h : Vector StateWords 8) (msg : Vector Block 8) :
    ∃ r, avx2Compress8Vectorized E n h msg = .ok r ∧ ∀ i : Fin 8,
      (fun j : Fin 8 => r[j][i]) =
        if E.x86 && E.avx2 then times (step msg[i]) n (fun j : Fin 8 => h[j][i])
        else fun j : Fin 8 => h[j][i] := by
  unfold avx2Compress8Vectorized
  cases hx : E.x86 && E.avx2
  · exact ⟨h, rfl, fun _ => rfl⟩
  · have key := iter_ok (body := fun h => Compress8VectorizedFn.avx2.call E h msg (Vector.replicate 8 0)
        (Vector.replicate 8 0) (Vector.replicate 8 0) (Vector.replicate 8 0))
      (fun (a : Vector StateWords 8) (i j : Fin 8) => a[j][i])
      (f := fun a i => step msg[i] (a i)) (fun a => ⟨Avx2.compress8Vectorized a msg (Vector.replicate 8 0)
        (Vector.replicate 8 0) (Vector.replicate 8 0) (Vector.replicate 8 0), ?_, ?_⟩) n h
    · obtain ⟨r, e, hr⟩ := key
      refine ⟨r, e, fun i => ?_⟩
      exact (congrFun hr i).trans
        (times_at (fun i => step msg[i]) n (fun (i j : Fin 8) => h[j][i]) i)
    · simp only [Compress8VectorizedFn.call, hx, if_true]
      rfl
    · funext i
      have hs := zero_step (transpose8 a)[i] msg[i]
      rw [compress_eq_core] at hs
      have hv := avx_compress8Vectorized (transpose8 a) msg (Vector.replicate 8 0)
        (Vector.replicate 8 0) (Vector.replicate 8 0) (Vector.replicate 8 0)
      rw [transpose8_transpose8] at hv
      rw [hv]
      refine Eq.trans ?_ (hs.trans ?_)
      · funext j
        refine (transpose8_get _ _ _ j.isLt i.isLt).trans ?_
        rw [Vector.getElem_ofFn]
        simp only [Fin.getElem_fin, Vector.getElem_replicate]
        rfl
      · congr 1
        funext j
        exact transpose8_get _ _ _ i.isLt j.isLt

/-- C47: the fully transposed 8-way benchmark, for any counters and flag words: lane `i` is compressed
separately, as often as the benchmark iterates. -/
theorem C47_compress8_transposed_all (E : Env) (n : Nat) (h_vecs : Vector M256 8) (msg_vecs : Vector M256 16)
    (count_low count_high lastblock lastnode : M256) (msg : Fin 8 → Block)
    (hm : ∀ (i : Fin 8) (j : Fin 16), lane 32 i.val msg_vecs[j] = Spec.blockWords (msg i).toList j)
    (count : Fin 8 → U64) (hc : ∀ i : Fin 8, lane 32 i.val count_low = (count i).setWidth 32 ∧
      lane 32 i.val count_high = (count i >>> 32).setWidth 32) :
    ∃ r, avx2Compress8TransposedAll E n h_vecs msg_vecs count_low count_high lastblock lastnode = .ok r ∧
      ∀ i : Fin 8, r.map (lane 32 i.val) =
        if E.x86 && E.avx2 then
          times (fun h => Portable.compress h (msg i) (count i) (lane 32 i.val lastblock)
            (lane 32 i.val lastnode)) n (h_vecs.map (lane 32 i.val))
        else h_vecs.map (lane 32 i.val) := by
  unfold avx2Compress8TransposedAll
  cases hx : E.x86 && E.avx2
  · exact ⟨h_vecs, rfl, fun _ => rfl⟩
  · have key := iter_ok
      (body := fun h => compress8TransposedCall E h msg_vecs count_low count_high lastblock lastnode)
      (fun (a : Vector M256 8) (i : Fin 8) => a.map (lane 32 i.val))
      (f := fun a i => Portable.compress (a i) (msg i) (count i) (lane 32 i.val lastblock)
            (lane 32 i.val lastnode))
      (fun a => ⟨Avx2.compress8Transposed a msg_vecs count_low count_high lastblock lastnode, ?_, ?_⟩) n h_vecs
    · obtain ⟨r, e, hr⟩ := key
      refine ⟨r, e, fun i => ?_⟩
      exact (congrFun hr i).trans
        (times_at (fun i h => Portable.compress h (msg i) (count i) (lane 32 i.val lastblock)
            (lane 32 i.val lastnode)) n (fun (i : Fin 8) => h_vecs.map (lane 32 i.val)) i)
    · simp only [compress8TransposedCall, hx, if_true]
      rfl
    · funext i
      exact C08_transposed_all a msg_vecs count_low count_high lastblock lastnode i.val i.isLt (msg i) (hm i)
        (count i) (hc i)

example (h : Vector M256 8) (lastblock lastnode : M256) : ∃ r, avx2Compress8TransposedAll debugAvx2 7 h
      (Vector.replicate 16 (mm256_set1_epi32 0x02020202)) (mm256_set1_epi32 0x03030303)
      (mm256_set1_epi32 0x04040404) lastblock lastnode = .ok r ∧
    ∀ i : Fin 8, r.map (lane 32 i.val) =
      times (fun h => Portable.compress h (Vector.replicate 64 2) 0x0404040403030303 (lane 32 i.val lastblock)
        (lane 32 i.val lastnode)) 7 (h.map (lane 32 i.val)) :=
  C47_compress8_transposed_all debugAvx2 7 h _ _ _ lastblock lastnode (fun _ => Vector.replicate 64 2) bench_message
    (fun _ => 0x0404040403030303) bench_count

/-! ## Hashing -/

/-- C47: the portable and the BLAKE2sp benchmarks hash their whole input. -/
theorem C47_hash (E : Env) (hE : E.WF) (input : List U8)
    (h : E.overflowChecks = true → input.length < 2 ^ 64) :
    (∃ d, hashPortable E input = .ok d ∧ d.asBytes = .ok (Spec.blake2s input)) ∧
    (∃ d, hashBlake2sp E input = .ok d ∧ d.asBytes = .ok (Spec.Sp.blake2sp input)) := by
  refine ⟨?_, Sp.C26_one_shot E hE input h⟩
  obtain ⟨s, e, r⟩ := Tests.new_ok E hE
  obtain ⟨s1, e1, r1⟩ := Tests.update_good (forcePortable_rep r) input h
  obtain ⟨s2, d, e2, -, hd⟩ := Tests.finalize_good r1
  refine ⟨d, ?_, ?_⟩
  · unfold hashPortable
    simp only [e, bind, Except.bind, e1, e2]
    rfl
  · have := Cfg.hashes_asBytes hd (show (32 : U8).toNat ≤ 32 by decide)
    exact this

example : ∃ d, hashPortable debugAvx2 bytes1500 = .ok d ∧ d.asBytes = .ok (Spec.blake2s bytes1500) :=
  (C47_hash debugAvx2 (by decide) bytes1500 (fun _ => by rw [length1500]; decide)).1

theorem eight_new {E : Env} (hE : E.WF) (input : Vector (List U8) 8)
    (h : E.overflowChecks = true → ∀ i : Fin 8, input[i].length < 2 ^ 64) :
    ∃ s st st' hs, State.new E = .ok s ∧ update8 E #v[s, s, s, s, s, s, s, s] input = .ok st ∧
      finalize8 E st = .ok (st', hs) ∧ ∀ i : Fin 8, hs[i].asBytes = .ok (Spec.blake2s input[i]) := by
  obtain ⟨s, e, r⟩ := Tests.new_ok E hE
  have hr : ∀ i : Fin 8, Rep E (Tests.plainCfg E) [] (#v[s, s, s, s, s, s, s, s])[i] := by
    intro i
    match i with
    | 0 | 1 | 2 | 3 | 4 | 5 | 6 | 7 => exact r
  obtain ⟨st, e1, r1⟩ := (update8_ends (fun _ => Tests.plainCfg E) (fun _ => []) _ input hr).elim (by
    rintro ⟨i, h1, h2⟩
    have := h h1 i
    rw [List.nil_append] at h2
    omega)
  obtain ⟨st', hs, e2, h2⟩ := finalize8_ok (E := E) st (fun i => by
    obtain ⟨k, w, _⟩ := r1 i
    rw [w.fn]; exact w.sup)
  refine ⟨s, st, st', hs, e, e1, e2, fun i => ?_⟩
  obtain ⟨s', d, e', -, hd⟩ := Tests.finalize_good (r1 i)
  rw [h2 i] at e'
  obtain ⟨-, rfl⟩ := Prod.mk.inj (Except.ok.inj e')
  exact Tests.plain_bytes hd

theorem ok_then {α β : Type} (a : α) (f : α → R β) : (Except.ok a >>= f) = f a := rfl

theorem second {α β : Type} {x : R (α × β)} {a : α} {b : β} (h : x = .ok (a, b)) :
    (do let (_, y) ← x
        return y : R β) = .ok b := by
  rw [h]
  rfl

/-- C47: the `update8` benchmarks return the hashes of their eight inputs. -/
theorem C47_update8 (E : Env) (hE : E.WF) (input : Vector (List U8) 8)
    (h : E.overflowChecks = true → ∀ i : Fin 8, input[i].length < 2 ^ 64) :
    ∃ hs, doUpdate8 E input = .ok hs ∧ ∀ i : Fin 8, hs[i].asBytes = .ok (Spec.blake2s input[i]) := by
  obtain ⟨s, st, st', hs, e, e1, e2, hd⟩ := eight_new hE input h
  refine ⟨hs, ?_, hd⟩
  unfold doUpdate8
  rw [e]
  simp only [ok_then]
  rw [e1, ok_then]
  exact second e2

example : ∃ hs, doUpdate8 debugAvx2 laneInput = .ok hs ∧
    ∀ i : Fin 8, hs[i].asBytes = .ok (Spec.blake2s laneInput[i]) :=
  C47_update8 debugAvx2 (by decide) laneInput (fun _ i => by have := length_laneInput i; omega)

theorem eighthOf_ok (input : List U8) (i : Nat) (hi : i < 8) :
    eighthOf input (input.length / 8) i =
      .ok ((input.drop (i * (input.length / 8))).take (input.length / 8)) := by
  have h8 : 8 * (input.length / 8) ≤ input.length := Nat.mul_div_le _ _
  have hm : (i + 1) * (input.length / 8) ≤ 8 * (input.length / 8) := Nat.mul_le_mul_right _ hi
  rw [Nat.succ_mul] at hm
  unfold eighthOf sliceFrom
  rw [if_pos (by omega)]
  exact if_pos (by rw [List.length_drop]; omega)

/-- C47: `hash_update8` of benchmark_gig returns the hashes of the eight consecutive eighths of its input.
If the length is not a multiple of 8, the last `length % 8` bytes are not hashed. -/
theorem C47_gig_update8 (E : Env) (hE : E.WF) (input : List U8)
    (h : E.overflowChecks = true → input.length < 2 ^ 64) :
    ∃ hs, hashUpdate8 E input = .ok hs ∧ ∀ i : Fin 8, hs[i].asBytes =
      .ok (Spec.blake2s ((input.drop (i.val * (input.length / 8))).take (input.length / 8))) := by
  obtain ⟨s, st, st', hs, e, e1, e2, hd⟩ := eight_new hE
    (Vector.ofFn fun i : Fin 8 => (input.drop (i.val * (input.length / 8))).take (input.length / 8))
    (by
      intro ho i
      have := h ho
      rw [Fin.getElem_fin, Vector.getElem_ofFn, List.length_take]
      omega)
  refine ⟨hs, ?_, fun i => ?_⟩
  · unfold hashUpdate8
    rw [e]
    simp only [ok_then, eighthOf_ok input 0 (by decide), eighthOf_ok input 1 (by decide),
      eighthOf_ok input 2 (by decide), eighthOf_ok input 3 (by decide), eighthOf_ok input 4 (by decide),
      eighthOf_ok input 5 (by decide), eighthOf_ok input 6 (by decide), eighthOf_ok input 7 (by decide)]
    rw [eta8 (Vector.ofFn _)] at e1
    simp only [Vector.getElem_ofFn] at e1
    rw [e1, ok_then]
    exact second e2
  · rw [hd i, Fin.getElem_fin, Vector.getElem_ofFn]

/-- 1500 bytes: eight pieces of 187 bytes, and 4 bytes are left out. -/
example : ∃ hs, hashUpdate8 debugAvx2 bytes1500 = .ok hs ∧
    hs[(7 : Fin 8)].asBytes = .ok (Spec.blake2s ((bytes1500.drop 1309).take 187)) := by
  obtain ⟨hs, e, h⟩ := C47_gig_update8 debugAvx2 (by decide) bytes1500 (fun _ => by rw [length1500]; decide)
  have h := h 7
  rw [length1500] at h
  exact ⟨hs, e, h⟩

theorem plain_asBytes {input : List U8} :
    Spec.hash Params.new.values [] Params.new.lastNode input = Spec.blake2s input := rfl

/-- C47: the `hash4_exact`, `hash8_exact` and `hash8` benchmarks return the hash of their buffer in every
position, for every buffer they accept: the first two take only whole blocks, and not none. -/
theorem C47_hash_many (E : Env) (hE : E.WF) (buf : List U8)
    (h : E.overflowChecks = true → buf.length < 2 ^ 64) :
    (buf.length % 64 = 0 → buf ≠ [] →
      (∃ hs, hash4 E buf = .ok hs ∧ ∀ i : Fin 4, hs[i].asBytes = .ok (Spec.blake2s buf)) ∧
      (∃ hs, hash8Exact E buf = .ok hs ∧ ∀ i : Fin 8, hs[i].asBytes = .ok (Spec.blake2s buf))) ∧
    (∃ hs, hash8Inexact E buf = .ok hs ∧ ∀ i : Fin 8, hs[i].asBytes = .ok (Spec.blake2s buf)) := by
  have hp : Params.new.Accepted := ⟨[], rfl⟩
  have hfit : Fits E Params.new buf.length := by
    intro ho
    have := h ho
    rw [if_pos (show Params.new.keyLength = 0 from rfl)]
    omega
  constructor
  · intro h64 hne
    have h0 : buf.length ≠ 0 := fun h => hne (List.length_eq_zero_iff.mp h)
    have l4 : ExactLengths (Vector.replicate 4 buf) buf.length :=
      ⟨fun i => by rw [Fin.getElem_fin, Vector.getElem_replicate], h64, h0⟩
    have l8 : ExactLengths (Vector.replicate 8 buf) buf.length :=
      ⟨fun i => by rw [Fin.getElem_fin, Vector.getElem_replicate], h64, h0⟩
    obtain ⟨hs, e, hd⟩ := C13_hash4_exact E hE Params.new hp rfl _ _ l4 hfit
    obtain ⟨hs', e', hd'⟩ := C14_hash8_exact E hE Params.new hp rfl _ _ l8 hfit
    refine ⟨⟨hs, e, fun i => ?_⟩, ⟨hs', e', fun i => ?_⟩⟩
    · rw [(hd i).2, plain_asBytes, Fin.getElem_fin, Vector.getElem_replicate]
    · rw [(hd' i).2, plain_asBytes, Fin.getElem_fin, Vector.getElem_replicate]
  · obtain ⟨hs, e, hd⟩ := C15_hash8 E hE (Vector.replicate 8 Params.new)
      (fun i => by rw [Fin.getElem_fin, Vector.getElem_replicate]; exact hp)
      (fun i => by rw [Fin.getElem_fin, Vector.getElem_replicate]; rfl) (Vector.replicate 8 buf)
      (fun i => by
        rw [Fin.getElem_fin, Vector.getElem_replicate, Fin.getElem_fin, Vector.getElem_replicate]
        exact hfit)
    refine ⟨hs, e, fun i => ?_⟩
    rw [(hd i).2]
    simp only [Fin.getElem_fin, Vector.getElem_replicate]
    rfl

example : ∃ hs, hash4 debugAvx2 (bytes1500.take 1472) = .ok hs ∧
    ∀ i : Fin 4, hs[i].asBytes = .ok (Spec.blake2s (bytes1500.take 1472)) := by
  have l : (bytes1500.take 1472).length = 1472 := by rw [List.length_take, length1500]; rfl
  exact ((C47_hash_many debugAvx2 (by decide) (bytes1500.take 1472) (fun _ => by rw [l]; decide)).1 (by rw [l])
    (fun h => by rw [h] at l; cases l)).1

/-! ## Supported instructions -/

/-- C47 is false of one benchmark: `bench_blake2s_sse41_compress` has no run-time check, and executes SSE4.1
instructions on every x86 CPU. -/
theorem C47_false : ∃ E : Env, E.WF ∧ E.x86 = true ∧
    sse41Compress E 1 (Vector.replicate 8 0) (Vector.replicate 64 0) = .error .illegalInstruction :=
  ⟨⟨true, true, true, true, false, false⟩, by decide, rfl, rfl⟩

/-- C47, what holds: every benchmark that needs SSE4.1 or AVX2 ends normally on every CPU, whatever its
inputs and the number of iterations. Missing: `bench_blake2s_sse41_compress` on a CPU without SSE4.1, see
`C47_false`. -/
theorem C47_supported_partial (E : Env) (n : Nat) :
    (∀ h block, ∃ r, avx2Compress8 E n h block = .ok r) ∧
    (∀ h msg, ∃ r, sse41Compress4Transposed E n h msg = .ok r) ∧
    (∀ h msg, ∃ r, avx2Compress8Vectorized E n h msg = .ok r) ∧
    (∀ h msg cl ch lb ln, ∃ r, avx2Compress8TransposedAll E n h msg cl ch lb ln = .ok r) ∧
    (E.x86 = true → E.sse41 = true → ∀ h block, ∃ r, sse41Compress E n h block = .ok r) := by
  refine ⟨fun h block => ?_, fun h msg => ?_, fun h msg => ?_, fun h msg cl ch lb ln => ?_,
    fun h1 h2 h block => ?_⟩
  · obtain ⟨r, e, _⟩ := (C47_compress8 E n h block).2
    exact ⟨r, e⟩
  · obtain ⟨r, e, _⟩ := C47_compress4_transposed E n h msg
    exact ⟨r, e⟩
  · obtain ⟨r, e, _⟩ := C47_compress8_vectorized E n h msg
    exact ⟨r, e⟩
  · unfold avx2Compress8TransposedAll
    cases hx : E.x86 && E.avx2
    · exact ⟨h, rfl⟩
    · obtain ⟨r, e, _⟩ := iter_ok
        (body := fun h => compress8TransposedCall E h msg cl ch lb ln)
        (fun _ : Vector M256 8 => ()) (f := id)
        (fun a => ⟨Avx2.compress8Transposed a msg cl ch lb ln, by
          simp only [compress8TransposedCall, hx, if_true]; rfl, rfl⟩) n h
      exact ⟨r, e⟩
  · obtain ⟨r, e, _⟩ := (C47_compress E n h block).2 h1 h2
    exact ⟨r, e⟩

/-- A CPU without SSE4.1 and AVX2. -/
example (h : Vector StateWords 8) (block : Vector Block 8) :
    ∃ r, avx2Compress8 ⟨true, true, true, true, false, false⟩ 1000 h block = .ok r :=
  (C47_supported_partial _ 1000).1 h block

end Bench

end Blake2s
