import Verif.Proofs.Steps
/-!
# The number of steps: BLAKE2sp and programs
-/

namespace Blake2s

open Tr (lift emit orPanic)

namespace Sp

theorem Params.ws_debug (p : Params) : Ws 2 p.debugT fun _ => True :=
  Ws.bind (.emit _) fun _ _ => Ws.bind (.emit _) fun _ _ => .pure trivial

namespace State

theorem ws_baseParams (p : Params) : Ws 19 (baseParamsT p) fun _ => True := by
  unfold baseParamsT
  refine Ws.bind (n := 4) (P := fun _ => True) ?_ fun _ _ => ?_
  · exact Ws.bind (n := 2) (ws_testAll _) fun _ _ => Ws.bind (ws_assertT _ _) fun _ _ => .pure trivial
  · refine Ws.bind (ws_sliceToT _ _) fun k _ => ?_
    refine Ws.bind (ws_short _ k 32 _) fun p _ => ?_
    dsimp only
    refine Ws.bind (n := 2) (P := fun _ => True) (Ws.bind (ws_assertT _ _) fun _ _ => .pure trivial) fun p _ => ?_
    exact Ws.bind (ws_assertT _ _) fun _ _ => .pure trivial

theorem ws_leafState (E : Env) (b : Blake2s.Params) (i : U64) : Ws 407 (leafStateT E b i) fun _ => True := by
  unfold leafStateT
  refine Ws.bind (n := 2) (P := fun _ => True) (Ws.bind (ws_assertT _ _) fun _ _ => .pure trivial) fun p _ => ?_
  exact Ws.bind (Blake2s.State.ws_withParams _ _) fun _ _ => .pure trivial

theorem ws_withParams (E : Env) (p : Params) : Ws 3682 (withParamsT E p) fun _ => True := by
  unfold withParamsT
  refine Ws.bind (ws_baseParams p) fun b _ => ?_
  refine Ws.bind (n := 2) (P := fun _ => True) (Ws.bind (ws_assertT _ _) fun _ _ => .pure trivial) fun p _ => ?_
  dsimp only
  refine Ws.bind (Blake2s.State.ws_withParams _ _) fun _ _ => ?_
  iterate 8 refine Ws.bind (ws_leafState _ _ _) fun _ _ => ?_
  exact .pure trivial

theorem ws_fillBuf (E : Env) (s : State) (input : List U8) :
    Ws 19 (s.fillBufT E input) fun r => r.2.length ≤ input.length := by
  unfold fillBufT
  refine Ws.bind (ws_usizeSubT _ _) fun d _ => Ws.bind (ws_minT _ _) fun t _ => ?_
  refine Ws.bind (ws_usizeAddT _ _) fun n _ => Ws.bind (ws_sliceToT _ _) fun part _ => ?_
  refine Ws.bind (ws_copyFromSliceT _ _ _ _) fun buf _ => ?_
  refine Ws.bind (ws_addChkT _ _ _) fun l _ => ?_
  exact Ws.bind (ws_sliceFromT _ _) fun rest hr => .pure (by dsimp only; omega)

theorem ws_compress8 (E : Env) (input : Vector U8 512) (lf : Vector Blake2s.State 8) (fn : Compress8Fn) :
    Ws 1327 (compress8T E input lf fn) fun _ => True := by
  unfold compress8T
  iterate 15 refine Ws.bind (ws_debugAssertT _ _ _) fun _ _ => ?_
  iterate 8 refine Ws.bind (ws_addChkT _ _ _) fun _ _ => ?_
  exact Ws.bind (Blake2s.ws_compress8 _ _ _ _ _ _ _) fun _ _ => .pure trivial

theorem ws_updateBuffered (E : Env) (s : State) (input : List U8) :
    Ws 2678 (s.updateBufferedT E input) fun r => r.2.length ≤ input.length := by
  unfold updateBufferedT
  refine Ws.bind (ws_test _) fun _ _ => Ws.ite (fun _ => ?_) fun _ => .pure (Nat.le_refl _)
  refine Ws.bind (ws_fillBuf E s input) fun r hr => ?_
  obtain ⟨s, input⟩ := r
  refine Ws.bind (ws_test _) fun _ _ => Ws.ite (fun _ => ?_) fun _ => .pure hr
  refine Ws.bind (ws_compress8 _ _ _ _) fun _ _ => Ws.bind (ws_subChkT _ _ _) fun _ _ => ?_
  dsimp only
  refine Ws.bind (ws_test _) fun _ _ => Ws.ite (fun _ => ?_) fun _ => ?_
  · exact Ws.bind (ws_compress8 _ _ _ _) fun _ _ => .pure hr
  · exact Ws.bind (ws_sliceToT _ _) fun _ _ => Ws.bind (ws_copyFromSliceT _ _ _ _) fun _ _ => .pure hr

theorem ws_updateLoop (E : Env) (fn : Compress8Fn) (n : Nat) (lf : Vector Blake2s.State 8) (input : List U8) :
    Ws (1 + 3 * input.length) (updateLoopT E fn n lf input) fun r => r.2.length ≤ input.length := by
  induction n generalizing lf input with
  | zero => exact .fail _
  | succ n ih =>
    rw [updateLoopT]
    refine Ws.bind (ws_test _) fun b hb => Ws.ite (fun hc => ?_) fun _ => .pure (Nat.le_refl _)
    rw [hb] at hc
    have hl : input.length > 960 := of_decide_eq_true hc
    refine Ws.bind (ws_arrayRefT _ _ _) fun block _ => ?_
    refine Ws.bind (ws_compress8 _ _ _ _) fun h _ => Ws.bind (ws_sliceFromT _ _) fun rest hr => ?_
    simp only [BLOCKBYTES] at hr
    exact ((ih _ rest).mono fun r h => by omega).le (by omega)

theorem ws_update (E : Env) (s : State) (input : List U8) :
    Ws (2700 + 3 * input.length) (s.updateT E input) fun _ => True := by
  unfold updateT
  refine Ws.bind (ws_updateBuffered E s input) fun r hr => ?_
  refine Ws.bind ((ws_updateLoop E _ _ _ _).le (k := 1 + 3 * input.length) (by omega)) fun q hq => ?_
  obtain ⟨lf, rest⟩ := q
  refine Ws.bind (ws_fillBuf E _ _) fun _ _ => ?_
  exact Ws.bind (ws_debugAssertT _ _ _) fun _ _ => .pure trivial

theorem ws_updateChunk (E : Env) (leaf : Blake2s.State) (buf : Vector U8 1024) (k : Fin 16) (n : Nat) :
    Ws 402 (updateChunkT E leaf buf k n) fun _ => True := by
  unfold updateChunkT
  dsimp only
  refine Ws.bind (ws_minT _ _) fun t ht => Ws.bind (ws_sliceToT _ _) fun part hp => ?_
  simp only [BLOCKBYTES] at ht
  exact (Blake2s.State.ws_update _ _ _).le (by omega)

theorem ws_absorb (E : Env) (root leaf : Blake2s.State) {β : Type} (f : Blake2s.State → Tr β) {n : Nat}
    {Q : β → Prop} (h : ∀ r, Ws (n - 468) (f r) Q) (hn : 468 ≤ n := by omega) :
    Ws n (leaf.finalizeT E >>= fun x => x.2.asBytesT >>= fun b => root.updateT E b >>= f) Q := by
  refine Ws.bind (Blake2s.State.ws_finalize _ _) fun x _ => Ws.bind (ws_asBytesT _) fun b hb => ?_
  exact Ws.bind ((Blake2s.State.ws_update _ _ _).le (k := 302) (by omega)) fun r _ => (h r).le (by omega)

theorem ws_finalize (E : Env) (s : State) : Ws 10354 (s.finalizeT E) fun _ => True := by
  unfold finalizeT
  dsimp only
  iterate 15 refine Ws.bind (ws_updateChunk _ _ _ _ _) fun _ _ => Ws.bind (ws_saturatingSubT _) fun _ _ => ?_
  refine Ws.bind (ws_updateChunk _ _ _ _ _) fun _ _ => ?_
  iterate 8 refine ws_absorb E _ _ _ fun _ => ?_
  exact Ws.bind (Blake2s.State.ws_finalize _ _) fun _ _ => .pure trivial

theorem ws_getCount (E : Env) (s : State) : Ws 16 (s.getCountT E) fun _ => True := by
  unfold getCountT
  iterate 7 refine Ws.bind (ws_addChkT _ _ _) fun _ _ => ?_
  exact ws_addChkT _ _ _

theorem ws_write (E : Env) (s : State) (input : List U8) :
    Ws (2700 + 3 * input.length) (s.writeT E input) fun _ => True :=
  Ws.bind (ws_update _ _ _) fun _ _ => .pure trivial

theorem ws_debug (E : Env) (s : State) : Ws 32 (s.debugT E) fun _ => True := by
  unfold debugT
  refine Ws.bind (ws_getCount _ _) fun _ _ => Ws.bind (.emit _) fun _ _ => ?_
  iterate 5 refine Ws.bind (Blake2s.State.ws_debug _) fun _ _ => ?_
  exact .pure trivial

end State

end Sp

theorem ws_blake2sp (E : Env) (input : List U8) :
    Ws (16736 + 3 * input.length) (blake2spT E input) fun _ => True := by
  unfold blake2spT Sp.State.newT
  refine Ws.bind (Sp.State.ws_withParams _ _) fun _ _ => Ws.bind (Sp.State.ws_update _ _ _) fun _ _ => ?_
  exact Ws.bind (Sp.State.ws_finalize _ _) fun _ _ => .pure trivial

/-! ## Programs -/

theorem World.ws_init (E : Env) : Ws 4861 (World.initT E) fun _ => True := by
  unfold World.initT
  refine Ws.bind (State.ws_new _) fun _ _ => Ws.bind (n := 774) (ws_blake2s _ _) fun _ _ => ?_
  exact Ws.bind (Sp.State.ws_withParams _ _) fun _ _ => .pure trivial

theorem bytes4 (v : Vector (List U8) 4) : (v.toList.map List.length).sum =
    v[0].length + v[1].length + v[2].length + v[3].length := by
  have e : v.toList = [v[0], v[1], v[2], v[3]] := by
    obtain ⟨⟨l⟩, h⟩ := v
    match l, h with
    | [a, b, c, d], _ => rfl
  rw [e]
  simp only [List.map_cons, List.map_nil, List.sum_cons, List.sum_nil]
  omega

theorem bytes8 (v : Vector (List U8) 8) : (v.toList.map List.length).sum = total8 v := by
  have e : v.toList = [v[0], v[1], v[2], v[3], v[4], v[5], v[6], v[7]] := by
    obtain ⟨⟨l⟩, h⟩ := v
    match l, h with
    | [a, b, c, d, e, f, g, i], _ => rfl
  rw [e, total8]
  simp only [List.map_cons, List.map_nil, List.sum_cons, List.sum_nil]
  omega

theorem World.ws_call (E : Env) (w : World) (c : Call) :
    Ws (16736 + 3 * (c.slices.map List.length).sum) (w.callT E c) fun _ => True := by
  have one (l : List U8) : ([l].map List.length).sum = l.length := by
    simp only [List.map_cons, List.map_nil, List.sum_cons, List.sum_nil]; omega
  cases c <;> dsimp only [World.callT]
  case set => exact Ws.bind (Params.ws_set _ _) fun _ _ => .pure trivial
  case newState => exact Ws.bind (State.ws_new _) fun _ _ => .pure trivial
  case toState => exact Ws.bind (State.ws_withParams _ _) fun _ _ => .pure trivial
  case update s b =>
    have := one b
    exact Ws.bind (State.ws_update _ _ _) (fun _ _ => .pure trivial) (by dsimp only [Call.slices]; omega)
  case write s b =>
    have := one b
    exact Ws.bind (State.ws_write _ _ _) (fun _ _ => .pure trivial) (by dsimp only [Call.slices]; omega)
  case finalize => exact Ws.bind (State.ws_finalize _ _) fun _ _ => .pure trivial
  case debugState => exact Ws.bind (State.ws_debug _) fun _ _ => .pure trivial
  case blake2s b h =>
    have := one b
    exact Ws.bind (ws_blake2s _ _) (fun _ _ => .pure trivial) (by dsimp only [Call.slices]; omega)
  case update8 s b =>
    have := bytes8 b
    exact Ws.bind (ws_update8 _ _ _) (fun _ _ => .pure trivial) (by dsimp only [Call.slices]; omega)
  case finalize8 => exact Ws.bind (ws_finalize8 _ _) fun _ _ => .pure trivial
  case hash4Exact p b h =>
    have := bytes4 b
    exact Ws.bind (ws_hash4Exact _ _ _) (fun _ _ => .pure trivial) (by dsimp only [Call.slices]; omega)
  case hash8Exact p b h =>
    have := bytes8 b
    exact Ws.bind (ws_hash8Exact _ _ _) (fun _ _ => .pure trivial) (by dsimp only [Call.slices]; omega)
  case hash8 p b h =>
    have := bytes8 b
    exact Ws.bind (ws_hash8 _ _ _) (fun _ _ => .pure trivial) (by dsimp only [Call.slices]; omega)
  case asBytes => exact Ws.bind (ws_asBytesT _) fun _ _ => .pure trivial
  case toHex => exact Ws.bind (Hash.ws_toHex _) fun _ _ => .pure trivial
  case debugHash => exact Ws.bind (Hash.ws_debug _) fun _ _ => .pure trivial
  case eqHash => exact Ws.bind (Hash.ws_eq _ _) fun _ _ => .pure trivial
  case eqSlice => exact Ws.bind (Hash.ws_eqSlice _ _) fun _ _ => .pure trivial
  case blake2sp b h =>
    have := one b
    exact Ws.bind (ws_blake2sp _ _) (fun _ _ => .pure trivial) (by dsimp only [Call.slices]; omega)
  case spSet => exact Ws.bind (Sp.Params.ws_set _ _) fun _ _ => .pure trivial
  case spDebugParams => exact Ws.bind (Sp.Params.ws_debug _) fun _ _ => .pure trivial
  case spNewState => exact Ws.bind (Sp.State.ws_withParams _ _) fun _ _ => .pure trivial
  case spToState => exact Ws.bind (Sp.State.ws_withParams _ _) fun _ _ => .pure trivial
  case spUpdate s b =>
    have := one b
    exact Ws.bind (Sp.State.ws_update _ _ _) (fun _ _ => .pure trivial) (by dsimp only [Call.slices]; omega)
  case spWrite s b =>
    have := one b
    exact Ws.bind (Sp.State.ws_write _ _ _) (fun _ _ => .pure trivial) (by dsimp only [Call.slices]; omega)
  case spFinalize => exact Ws.bind (Sp.State.ws_finalize _ _) fun _ _ => .pure trivial
  case spCount => exact Ws.bind (Sp.State.ws_getCount _ _) fun _ _ => .pure trivial
  case spDebugState => exact Ws.bind (Sp.State.ws_debug _ _) fun _ _ => .pure trivial
  all_goals exact .pure trivial

theorem World.ws_run (E : Env) (w : World) (cs : List Call) :
    Ws (16736 * cs.length + 3 * ((cs.flatMap Call.slices).map List.length).sum) (w.runT E cs) fun _ => True := by
  induction cs generalizing w with
  | nil => exact .pure trivial
  | cons c cs ih =>
    rw [World.runT, List.flatMap_cons, List.map_append, List.sum_append, List.length_cons]
    refine Ws.bind (World.ws_call E w c) (fun r _ => ?_) (by omega)
    exact Ws.bind (ih r.1) (fun _ _ => .pure trivial) (by omega)

theorem programT_ws (E : Env) (calls : List Call) :
    Ws (4861 + 16736 * calls.length + 3 * ((calls.flatMap Call.slices).map List.length).sum) (programT E calls)
      fun _ => True := by
  unfold programT
  refine Ws.bind (World.ws_init E) (fun w _ => ?_) (by omega)
  exact Ws.bind (World.ws_run E w calls) (fun _ _ => .pure trivial) (by omega)

end Blake2s
