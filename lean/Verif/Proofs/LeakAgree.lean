import Verif.Model.Leak
/-!
# The model with traces computes what the model without them computes
-/

namespace Blake2s

open Tr (lift emit)

namespace Tr

variable {α β : Type}

theorem bind_fst (m : Tr α) (f : α → Tr β) : (m >>= f).1 = m.1 >>= fun a => (f a).1 := by
  rcases m with ⟨_ | _, t⟩ <;> rfl

theorem pure_fst (a : α) : (pure a : Tr α).1 = (pure a : R α) := rfl

theorem lift_fst (r : R α) : (lift r).1 = r := rfl

theorem orPanic_fst (r : R α) (s : String) : (Tr.orPanic r s).1 = r := rfl

theorem emit_fst (e : Event) : (emit e).1 = pure () := rfl

theorem ite_fst (c : Prop) [Decidable c] (a b : Tr α) : (if c then a else b).1 = if c then a.1 else b.1 := by
  split <;> rfl

end Tr

open Tr

theorem test_fst (c : Bool) : (test c).1 = pure c := rfl

theorem testAll_fst (cs : List Bool) : (testAll cs).1 = pure (cs.all id) := by
  induction cs with
  | nil => rfl
  | cons c cs ih =>
    unfold testAll
    simp only [bind_fst, test_fst, pure_bind]
    cases c
    · rfl
    · simpa using ih

theorem addChkT_fst {w : Nat} (E : Env) (a b : BitVec w) : (addChkT E a b).1 = addChk E a b := by
  unfold addChkT; split <;> rfl

theorem subChkT_fst {w : Nat} (E : Env) (a b : BitVec w) : (subChkT E a b).1 = subChk E a b := by
  unfold subChkT; split <;> rfl

theorem usizeSubT_fst (a b : Nat) : (usizeSubT a b).1 = usizeSub a b := rfl
theorem usizeAddT_fst (a b : Nat) : (usizeAddT a b).1 = pure (a + b) := rfl
theorem minT_fst (a b : Nat) : (minT a b).1 = pure (min a b) := rfl
theorem sliceToT_fst (s : List U8) (n : Nat) : (sliceToT s n).1 = sliceTo s n := rfl
theorem sliceFromT_fst (s : List U8) (n : Nat) : (sliceFromT s n).1 = sliceFrom s n := rfl
theorem copyFromSliceT_fst {n : Nat} (d : Vector U8 n) (a b : Nat) (s : List U8) :
    (copyFromSliceT d a b s).1 = copyFromSlice d a b s := rfl
theorem arrayRefT_fst (s : List U8) (o n : Nat) : (arrayRefT s o n).1 = arrayRef s o n := rfl
theorem readBlockPtrT_fst (s : List U8) (o : Nat) : (readBlockPtrT s o).1 = readBlockPtr s o := rfl
theorem assertT_fst (c : Bool) (s : String) : (assertT c s).1 = assert c := rfl
theorem debugAssertT_fst (E : Env) (c : Bool) (s : String) : (debugAssertT E c s).1 = debugAssert E c := by
  unfold debugAssertT; split <;> rfl

namespace Portable

theorem wordT_fst (m : Vector U32 16) (r : Fin 12) (i : Fin 16) :
    (wordT m r i).1 = pure m[SIGMA[r][i]] := rfl

theorem roundT_fst (r : Fin 12) (m v : Vector U32 16) : (roundT r m v).1 = pure (round r m v) := by
  unfold roundT
  simp only [bind_fst, wordT_fst, pure_bind, pure_fst]
  rfl

theorem compressT_fst (h : StateWords) (m : Block) (c : U64) (a b : U32) :
    (compressT h m c a b).1 = pure (compress h m c a b) := by
  unfold compressT
  simp only [bind_fst, roundT_fst, pure_bind, pure_fst]
  rfl

theorem compress8T_fst (h : Vector StateWords 8) (m : Vector Block 8) (c : Vector U64 8)
    (a b : Vector U32 8) : (compress8T h m c a b).1 = pure (compress8 h m c a b) := by
  unfold compress8T
  simp only [bind_fst, compressT_fst, pure_bind, pure_fst]
  rfl

theorem joinCountT_fst (E : Env) (a b : U32) : (joinCountT E a b).1 = joinCount E a b :=
  addChkT_fst E _ _

theorem compress8VectorizedT_fst (E : Env) (w : Vector StateWords 8) (m : Vector Block 8)
    (cl ch a b : Vector U32 8) :
    (compress8VectorizedT E w m cl ch a b).1 = compress8Vectorized E w m cl ch a b := by
  unfold compress8VectorizedT compress8Vectorized
  simp only [bind_fst, compressT_fst, joinCountT_fst, pure_bind, pure_fst]

end Portable

theorem CompressFn.callT_fst (E : Env) (f : CompressFn) (h : StateWords) (m : Block) (c : U64)
    (a b : U32) : (f.callT E h m c a b).1 = f.call E h m c a b := by
  unfold callT
  cases f
  · simp only [bind_fst, emit_fst, pure_bind, Portable.compressT_fst]; rfl
  · simp only [bind_fst, emit_fst, pure_bind, lift_fst]

theorem Compress8Fn.callT_fst (E : Env) (f : Compress8Fn) (h : Vector StateWords 8)
    (m : Vector Block 8) (c : Vector U64 8) (a b : Vector U32 8) :
    (f.callT E h m c a b).1 = f.call E h m c a b := by
  unfold callT
  cases f
  · simp only [bind_fst, emit_fst, pure_bind, Portable.compress8T_fst]; rfl
  · simp only [bind_fst, emit_fst, pure_bind, lift_fst]

theorem Vectorize8Fn.callT_fst (E : Env) (f : Vectorize8Fn) (w : Vector StateWords 8) :
    (f.callT E w).1 = f.call E w := rfl

theorem Compress8VectorizedFn.callT_fst (E : Env) (f : Compress8VectorizedFn)
    (w : Vector StateWords 8) (m : Vector Block 8) (cl ch a b : Vector U32 8) :
    (f.callT E w m cl ch a b).1 = f.call E w m cl ch a b := by
  unfold callT
  cases f
  · simp only [bind_fst, emit_fst, pure_bind, Portable.compress8VectorizedT_fst]; rfl
  · simp only [bind_fst, emit_fst, pure_bind, lift_fst]

namespace Params

theorem setT_fst (p : Params) (c : Setter) : (p.setT c).1 = p.set c := by
  cases c <;>
    simp only [setT, set, setHashLengthT, setKeyT, setSaltT, setPersonalT, setMaxDepthT, setNodeOffsetT,
      setInnerHashLengthT, setHashLength, setKey, setSalt, setPersonal, setMaxDepth, setNodeOffset,
      setInnerHashLength, bind_fst, pure_fst, assertT_fst, copyFromSliceT_fst, testAll_fst, pure_bind,
      List.all_cons, List.all_nil, id, Bool.and_true]

theorem setHashLengthT_fst (p : Params) (n : Nat) : (p.setHashLengthT n).1 = p.setHashLength n :=
  setT_fst p (.hashLength n)
theorem setKeyT_fst (p : Params) (k : List U8) : (p.setKeyT k).1 = p.setKey k := setT_fst p (.key k)
theorem setMaxDepthT_fst (p : Params) (n : U8) : (p.setMaxDepthT n).1 = p.setMaxDepth n :=
  setT_fst p (.maxDepth n)
theorem setNodeOffsetT_fst (p : Params) (n : U64) : (p.setNodeOffsetT n).1 = p.setNodeOffset n :=
  setT_fst p (.nodeOffset n)
theorem setInnerHashLengthT_fst (p : Params) (n : Nat) :
    (p.setInnerHashLengthT n).1 = p.setInnerHashLength n := setT_fst p (.innerHashLength n)

end Params

theorem constantTimeEqT_fst (a b : List U8) : (constantTimeEqT a b).1 = pure (constantTimeEq a b) := by
  unfold constantTimeEqT
  simp only [bind_fst, test_fst, pure_bind]
  by_cases h : a.length == b.length
  · simp only [h, if_true, bind_fst, emit_fst, pure_bind, pure_fst]
  · simp only [h, constantTimeEq, Bool.false_and]
    rfl

theorem bytesToHexLoopT_fst (b : List U8) (s : List Char) :
    (bytesToHexLoopT b s).1 = bytesToHexLoop b s := by
  induction b generalizing s with
  | nil => rfl
  | cons x xs ih =>
    unfold bytesToHexLoopT bytesToHexLoop
    simp only [bind_fst, emit_fst, pure_bind, ih, arrayStringPushT, hexTableT, orPanic_fst]

namespace Hash

theorem asBytesT_fst (h : Hash) : h.asBytesT.1 = h.asBytes := rfl
theorem toHexT_fst (h : Hash) : h.toHexT.1 = h.toHex := by
  unfold toHexT toHex bytesToHex
  simp only [bind_fst, asBytesT_fst, bytesToHexLoopT_fst]
theorem eqHashT_fst (h g : Hash) : (h.eqHashT g).1 = h.eqHash g := by
  unfold eqHashT eqHash
  simp only [bind_fst, asBytesT_fst, constantTimeEqT_fst]
theorem eqSliceT_fst (h : Hash) (b : List U8) : (h.eqSliceT b).1 = h.eqSlice b := by
  unfold eqSliceT eqSlice
  simp only [bind_fst, asBytesT_fst, constantTimeEqT_fst]
theorem debugT_fst (h : Hash) : h.debugT.1 = h.debug := by
  unfold debugT debug
  simp only [bind_fst, toHexT_fst, pure_fst]

end Hash

namespace State

theorem fillBufT_fst (E : Env) (s : State) (i : List U8) : (s.fillBufT E i).1 = s.fillBuf E i := by
  unfold fillBufT fillBuf
  simp only [bind_fst, usizeSubT_fst, usizeAddT_fst, minT_fst, sliceToT_fst, copyFromSliceT_fst, addChkT_fst,
    sliceFromT_fst, pure_bind, pure_fst]

theorem compressBufferIfPossibleT_fst (E : Env) (s : State) (i : List U8) :
    (s.compressBufferIfPossibleT E i).1 = s.compressBufferIfPossible E i := by
  unfold compressBufferIfPossibleT compressBufferIfPossible
  simp only [bind_fst, test_fst, pure_bind, ite_fst, fillBufT_fst, CompressFn.callT_fst, pure_fst,
    decide_eq_true_eq]

theorem updateLoopT_fst (E : Env) (n : Nat) (s : State) (i : List U8) :
    (updateLoopT E n s i).1 = updateLoop E n s i := by
  induction n generalizing s i with
  | zero => rfl
  | succ n ih =>
    unfold updateLoopT updateLoop
    simp only [bind_fst, test_fst, pure_bind, ite_fst, addChkT_fst, arrayRefT_fst, sliceFromT_fst,
      CompressFn.callT_fst, pure_fst, decide_eq_true_eq, ih]

theorem updateT_fst (E : Env) (s : State) (i : List U8) : (s.updateT E i).1 = s.update E i := by
  unfold updateT update
  simp only [bind_fst, compressBufferIfPossibleT_fst, updateLoopT_fst, fillBufT_fst, pure_fst]

theorem withParamsT_fst (E : Env) (p : Params) : (withParamsT E p).1 = withParams E p := by
  unfold withParamsT withParams
  simp only [bind_fst, test_fst, pure_bind, ite_fst, copyFromSliceT_fst, updateT_fst, pure_fst,
    decide_eq_true_eq]

theorem newT_fst (E : Env) : (newT E).1 = new E := withParamsT_fst E _

theorem zeroTailT_fst (b : Block) (n : U8) : (zeroTailT b n).1 = pure (zeroTail b n) := rfl

theorem flagWordT_fst (b : Bool) : (flagWordT b).1 = pure (flagWord b) := by cases b <;> rfl

theorem finalizeT_fst (E : Env) (s : State) : (s.finalizeT E).1 = s.finalize E := by
  unfold finalizeT finalize
  simp only [bind_fst, zeroTailT_fst, flagWordT_fst, pure_bind, CompressFn.callT_fst, pure_fst]

theorem writeT_fst (E : Env) (s : State) (b : List U8) : (s.writeT E b).1 = s.write E b := by
  unfold writeT write
  simp only [bind_fst, updateT_fst, pure_fst]

theorem debugT_fst (s : State) : s.debugT.1 = pure s.debug := rfl

end State

theorem Params.toStateT_fst (E : Env) (p : Params) : (p.toStateT E).1 = p.toState E :=
  State.withParamsT_fst E p

theorem blake2sT_fst (E : Env) (i : List U8) : (blake2sT E i).1 = blake2s E i := by
  unfold blake2sT blake2s
  simp only [bind_fst, State.newT_fst, State.updateT_fst, State.finalizeT_fst, pure_fst]

theorem hashOneT_fst (E : Env) (p : Params) (i : List U8) : (hashOneT E p i).1 = hashOne E p i := by
  unfold hashOneT hashOne
  simp only [bind_fst, Params.toStateT_fst, State.updateT_fst, State.finalizeT_fst, pure_fst]

theorem Portable.hash4ExactT_fst (E : Env) (p : Params) (i : Vector (List U8) 4) :
    (Portable.hash4ExactT E p i).1 = Portable.hash4Exact E p i := by
  unfold Portable.hash4ExactT Portable.hash4Exact
  simp only [bind_fst, hashOneT_fst, pure_fst]

theorem Portable.hash8ExactT_fst (E : Env) (p : Params) (i : Vector (List U8) 8) :
    (Portable.hash8ExactT E p i).1 = Portable.hash8Exact E p i := by
  unfold Portable.hash8ExactT Portable.hash8Exact
  simp only [bind_fst, hashOneT_fst, pure_fst]

theorem exactLastNodeT_fst (p : Params) (c l : Nat) :
    (exactLastNodeT p c l).1 = pure (if p.lastNode ∧ c = l then ~~~ 0 else 0) := by
  unfold exactLastNodeT
  simp only [bind_fst, testAll_fst, pure_bind, ite_fst, pure_fst, List.all_cons, List.all_nil, id,
    Bool.and_true, Bool.and_eq_true, decide_eq_true_eq]
  split <;> rfl

theorem flag_fst (c l : Nat) : (State.flagWordT (decide (c = l))).1 = pure (if c = l then ~~~ 0 else 0) := by
  rw [State.flagWordT_fst]
  unfold State.flagWord
  simp only [decide_eq_true_eq]

theorem Sse41.hash4ExactLoopT_fst (p : Params) (i : Vector (List U8) 4) (l n : Nat)
    (h : Vector X86.M128 8) (c : Nat) :
    (Sse41.hash4ExactLoopT p i l n h c).1 = Sse41.hash4ExactLoop p i l n h c := by
  induction n generalizing h c with
  | zero => rfl
  | succ n ih =>
    unfold Sse41.hash4ExactLoopT Sse41.hash4ExactLoop
    simp only [bind_fst, test_fst, pure_bind, ite_fst, readBlockPtrT_fst, usizeAddT_fst, exactLastNodeT_fst, flag_fst,
      pure_fst, emit_fst, decide_eq_true_eq, ih]

theorem Avx2.hash8ExactLoopT_fst (p : Params) (i : Vector (List U8) 8) (l n : Nat)
    (h : Vector X86.M256 8) (c : Nat) :
    (Avx2.hash8ExactLoopT p i l n h c).1 = Avx2.hash8ExactLoop p i l n h c := by
  induction n generalizing h c with
  | zero => rfl
  | succ n ih =>
    unfold Avx2.hash8ExactLoopT Avx2.hash8ExactLoop
    simp only [bind_fst, test_fst, pure_bind, ite_fst, readBlockPtrT_fst, usizeAddT_fst, exactLastNodeT_fst, flag_fst,
      pure_fst, emit_fst, decide_eq_true_eq, ih]

theorem Hash4ExactFn.callT_fst (E : Env) (f : Hash4ExactFn) (p : Params) (i : Vector (List U8) 4) :
    (f.callT E p i).1 = f.call E p i := by
  unfold callT call
  cases f
  · simp only [bind_fst, emit_fst, pure_bind, Portable.hash4ExactT_fst]
  · simp only [bind_fst, emit_fst, pure_bind, ite_fst, lift_fst]
    split
    · exact Sse41.hash4ExactLoopT_fst _ _ _ _ _ _
    · rfl

theorem Hash8ExactFn.callT_fst (E : Env) (f : Hash8ExactFn) (p : Params) (i : Vector (List U8) 8) :
    (f.callT E p i).1 = f.call E p i := by
  unfold callT call
  cases f
  · simp only [bind_fst, emit_fst, pure_bind, Portable.hash8ExactT_fst]
  · simp only [bind_fst, emit_fst, pure_bind, ite_fst, lift_fst]
    split
    · exact Avx2.hash8ExactLoopT_fst _ _ _ _ _ _
    · rfl

theorem hash4ExactT_fst (E : Env) (p : Params) (i : Vector (List U8) 4) :
    (hash4ExactT E p i).1 = hash4Exact E p i := by
  unfold hash4ExactT hash4Exact
  simp only [bind_fst, testAll_fst, pure_bind, assertT_fst, Hash4ExactFn.callT_fst, List.all_cons,
    List.all_nil, id, Bool.and_true, Bool.and_assoc]

theorem hash8ExactT_fst (E : Env) (p : Params) (i : Vector (List U8) 8) :
    (hash8ExactT E p i).1 = hash8Exact E p i := by
  unfold hash8ExactT hash8Exact
  simp only [bind_fst, testAll_fst, pure_bind, assertT_fst, Hash8ExactFn.callT_fst, List.all_cons,
    List.all_nil, id, Bool.and_true, Bool.and_assoc]

seal Tr.andThen in
theorem update8LoopT_fst (E : Env) (f : Compress8Fn) (n : Nat) (s : Vector State 8)
    (i : Vector (List U8) 8) : (update8LoopT E f n s i).1 = update8Loop E f n s i := by
  induction n generalizing s i with
  | zero => rfl
  | succ n ih =>
    unfold update8LoopT update8Loop
    rw [bind_fst, testAll_fst, pure_bind]
    simp only [List.all_cons, List.all_nil, id, Bool.and_true, Bool.and_assoc]
    split
    · simp only [bind_fst, addChkT_fst, arrayRefT_fst, sliceFromT_fst, Compress8Fn.callT_fst, ih]
    · rfl

theorem update8T_fst (E : Env) (s : Vector State 8) (i : Vector (List U8) 8) :
    (update8T E s i).1 = update8 E s i := by
  unfold update8T update8
  simp only [bind_fst, State.compressBufferIfPossibleT_fst, update8LoopT_fst, State.updateT_fst, pure_fst]

theorem finalize8T_fst (E : Env) (s : Vector State 8) : (finalize8T E s).1 = finalize8 E s := by
  unfold finalize8T finalize8
  simp only [bind_fst, State.zeroTailT_fst, State.flagWordT_fst, pure_bind, Compress8Fn.callT_fst, pure_fst]

theorem allRemainingT_fst (p : Nat → Bool) (c : Nat) (i : List (List U8)) :
    (allRemainingT p c i).1 = allRemaining p c i := by
  induction i with
  | nil => rfl
  | cons x xs ih =>
    unfold allRemainingT allRemaining
    simp only [bind_fst, usizeSubT_fst, test_fst, ite_fst, ih, pure_fst, pure_bind]

theorem hash8FlagsT_fst (p : Vector Params 8) (b : Bool) : (hash8FlagsT p b).1 = pure
    (if b then Vector.replicate 8 (~~~ (0 : U32)) else Vector.replicate 8 0,
      if b then
          #v[State.flagWord p[0].lastNode, State.flagWord p[1].lastNode,
             State.flagWord p[2].lastNode, State.flagWord p[3].lastNode,
             State.flagWord p[4].lastNode, State.flagWord p[5].lastNode,
             State.flagWord p[6].lastNode, State.flagWord p[7].lastNode]
        else Vector.replicate 8 0) := by
  unfold hash8FlagsT
  cases b
  · rfl
  · simp only [bind_fst, test_fst, pure_bind, State.flagWordT_fst, pure_fst, if_true]

theorem hash8LoopT_fst (E : Env) (im : Impl) (p : Vector Params 8) (i : Vector (List U8) 8) (n : Nat)
    (w : Vector StateWords 8) (c : Nat) :
    (hash8LoopT E im p i n w c).1 = hash8Loop E im p i n w c := by
  induction n generalizing w c with
  | zero => rfl
  | succ n ih =>
    unfold hash8LoopT hash8Loop
    simp only [bind_fst, testAll_fst, test_fst, pure_bind, ite_fst, allRemainingT_fst, arrayRefT_fst, usizeAddT_fst,
      hash8FlagsT_fst, Compress8VectorizedFn.callT_fst, Vectorize8Fn.callT_fst, pure_fst, ih,
      List.all_cons, List.all_nil, id, Bool.and_true]

theorem hash8FinishT_fst (E : Env) (im : Impl) (c : Nat) (p : Params) (w : StateWords) (i : List U8) :
    (hash8FinishT E im c p w i).1 = hash8Finish E im c p w i := by
  unfold hash8FinishT hash8Finish
  simp only [bind_fst, sliceFromT_fst, State.updateT_fst, State.finalizeT_fst, pure_fst]

theorem hash8T_fst (E : Env) (p : Vector Params 8) (i : Vector (List U8) 8) :
    (hash8T E p i).1 = hash8 E p i := by
  unfold hash8T hash8
  simp only [bind_fst, assertT_fst, Vectorize8Fn.callT_fst, hash8LoopT_fst]
  congr 1; funext _
  congr 1; funext _
  congr 1; funext _
  congr 1; funext _
  congr 1; funext _
  congr 1; funext _
  congr 1; funext _
  congr 1; funext _
  congr 1; funext _
  congr 1; funext x
  cases x
  · rfl
  · simp only [bind_fst, Vectorize8Fn.callT_fst, hash8FinishT_fst, pure_fst]

namespace Sp

theorem Params.setT_fst (p : Params) (c : Setter) : (p.setT c).1 = p.set c := by
  cases c <;>
    simp only [setT, set, setHashLengthT, setKeyT, setHashLength, setKey, bind_fst, pure_fst, assertT_fst,
      copyFromSliceT_fst, testAll_fst, pure_bind, List.all_cons, List.all_nil, id, Bool.and_true]

namespace State

theorem baseParamsT_fst (p : Params) : (baseParamsT p).1 = baseParams p := by
  unfold baseParamsT baseParams
  simp only [bind_fst, Blake2s.Params.setHashLengthT_fst, Blake2s.Params.setKeyT_fst,
    Blake2s.Params.setMaxDepthT_fst, Blake2s.Params.setInnerHashLengthT_fst, sliceToT_fst]

theorem leafStateT_fst (E : Env) (p : Blake2s.Params) (i : U64) :
    (leafStateT E p i).1 = leafState E p i := by
  unfold leafStateT leafState
  simp only [bind_fst, Blake2s.Params.setNodeOffsetT_fst, Blake2s.Params.toStateT_fst, pure_fst]

theorem withParamsT_fst (E : Env) (p : Params) : (withParamsT E p).1 = withParams E p := by
  unfold withParamsT withParams
  simp only [bind_fst, baseParamsT_fst, leafStateT_fst, Blake2s.Params.setNodeOffsetT_fst,
    Blake2s.Params.toStateT_fst, pure_fst]

theorem newT_fst (E : Env) : (newT E).1 = new E := withParamsT_fst E _

theorem fillBufT_fst (E : Env) (s : State) (i : List U8) : (s.fillBufT E i).1 = s.fillBuf E i := by
  unfold fillBufT fillBuf
  simp only [bind_fst, usizeSubT_fst, usizeAddT_fst, minT_fst, sliceToT_fst, copyFromSliceT_fst, addChkT_fst,
    sliceFromT_fst, pure_bind, pure_fst]

theorem compress8T_fst (E : Env) (i : Vector U8 512) (l : Vector Blake2s.State 8) (f : Compress8Fn) :
    (compress8T E i l f).1 = compress8 E i l f := by
  unfold compress8T compress8
  simp only [bind_fst, debugAssertT_fst, addChkT_fst, Compress8Fn.callT_fst, pure_fst]

theorem updateBufferedT_fst (E : Env) (s : State) (i : List U8) :
    (s.updateBufferedT E i).1 = s.updateBuffered E i := by
  unfold updateBufferedT updateBuffered
  simp only [bind_fst, test_fst, pure_bind, ite_fst, fillBufT_fst, compress8T_fst, subChkT_fst,
    sliceToT_fst, copyFromSliceT_fst, pure_fst, decide_eq_true_eq]

theorem updateLoopT_fst (E : Env) (f : Compress8Fn) (n : Nat) (l : Vector Blake2s.State 8)
    (i : List U8) : (updateLoopT E f n l i).1 = updateLoop E f n l i := by
  induction n generalizing l i with
  | zero => rfl
  | succ n ih =>
    unfold updateLoopT updateLoop
    simp only [bind_fst, test_fst, pure_bind, ite_fst, arrayRefT_fst, compress8T_fst, sliceFromT_fst,
      pure_fst, decide_eq_true_eq, ih]

theorem updateT_fst (E : Env) (s : State) (i : List U8) : (s.updateT E i).1 = s.update E i := by
  unfold updateT update
  simp only [bind_fst, updateBufferedT_fst, updateLoopT_fst, fillBufT_fst, debugAssertT_fst, pure_fst]

theorem updateChunkT_fst (E : Env) (s : Blake2s.State) (b : Vector U8 1024) (k : Fin 16) (n : Nat) :
    (updateChunkT E s b k n).1 = updateChunk E s b k n := by
  unfold updateChunkT updateChunk
  simp only [bind_fst, minT_fst, sliceToT_fst, Blake2s.State.updateT_fst, pure_bind]

theorem saturatingSubT_fst (n : Nat) : (saturatingSubT n).1 = pure (n - BLOCKBYTES) := rfl

theorem finalizeT_fst (E : Env) (s : State) : (s.finalizeT E).1 = s.finalize E := by
  unfold finalizeT finalize
  simp only [bind_fst, updateChunkT_fst, saturatingSubT_fst, pure_bind, Blake2s.State.finalizeT_fst,
    Blake2s.State.updateT_fst, Hash.asBytesT_fst, pure_fst]

theorem getCountT_fst (E : Env) (s : State) : (s.getCountT E).1 = s.getCount E := by
  unfold getCountT getCount
  simp only [bind_fst, addChkT_fst]

theorem writeT_fst (E : Env) (s : State) (b : List U8) : (s.writeT E b).1 = s.write E b := by
  unfold writeT write
  simp only [bind_fst, updateT_fst, pure_fst]

theorem debugT_fst (E : Env) (s : State) : (s.debugT E).1 = s.debug E := by
  unfold debugT debug
  simp only [bind_fst, getCountT_fst, emit_fst, Blake2s.State.debugT_fst, pure_bind, pure_fst]

end State

theorem Params.toStateT_fst (E : Env) (p : Params) : (p.toStateT E).1 = p.toState E :=
  State.withParamsT_fst E p

end Sp

theorem blake2spT_fst (E : Env) (i : List U8) : (blake2spT E i).1 = blake2sp E i := by
  unfold blake2spT blake2sp
  simp only [bind_fst, Sp.State.newT_fst, Sp.State.updateT_fst, Sp.State.finalizeT_fst, pure_fst]

theorem World.initT_fst (E : Env) : (World.initT E).1 = World.init E := by
  unfold initT init
  simp only [bind_fst, State.newT_fst, blake2sT_fst, Sp.State.newT_fst, pure_fst]

theorem World.callT_fst (E : Env) (w : World) (c : Call) : (w.callT E c).1 = w.call E c := by
  cases c <;>
    simp only [callT, call, bind_fst, pure_fst, pure_bind, Params.setT_fst, State.newT_fst, Params.toStateT_fst,
      State.updateT_fst, State.writeT_fst, State.finalizeT_fst, State.debugT_fst, blake2sT_fst,
      update8T_fst, finalize8T_fst, hash4ExactT_fst, hash8ExactT_fst, hash8T_fst, Hash.asBytesT_fst,
      Hash.toHexT_fst, Hash.debugT_fst, Hash.eqHashT_fst, Hash.eqSliceT_fst, blake2spT_fst,
      Sp.Params.setT_fst, Sp.State.newT_fst, Sp.Params.toStateT_fst, Sp.State.updateT_fst,
      Sp.State.writeT_fst, Sp.State.finalizeT_fst, Sp.State.getCountT_fst, Sp.State.debugT_fst]
  rfl

theorem World.runT_fst (E : Env) (w : World) (cs : List Call) : (w.runT E cs).1 = w.run E cs := by
  induction cs generalizing w with
  | nil => rfl
  | cons c cs ih =>
    unfold runT run
    simp only [bind_fst, callT_fst, ih, pure_fst]

theorem programT_fst (E : Env) (cs : List Call) : (programT E cs).1 = program E cs := by
  unfold programT program
  simp only [bind_fst, World.initT_fst, World.runT_fst, pure_fst]

end Blake2s
