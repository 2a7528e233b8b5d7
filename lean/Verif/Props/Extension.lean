import Verif.Proofs.Extension
import Verif.Props.Hidden
import Verif.Props.Collision
/-!
# Digests cannot be extended (C58)

`Spec.hashTrace`, `Spec.Sp.hashTrace` (the compressions that make up a hash) and `Spec.Collide` (two different inputs
of the compression function with the same output) are in Verif/SpecTrace.lean, `Spec.PassesThrough` in
Verif/Extension.lean.
-/

namespace Blake2s

/-- C58: in the computation of a hash every compression but the last hands its output on to the next one, and is not
marked as the final one; the last one is, carries the last-node flag, and yields the digest. -/
theorem C58_shape (p : Spec.Params) (key : List U8) (ln : Bool) (msg : List U8) :
    (∀ before x y after, Spec.hashTrace p key ln msg = before ++ x :: y :: after →
      x.final = false ∧ x.lastNode = false ∧ y.h = x.output) ∧
    ∃ before x, Spec.hashTrace p key ln msg = before ++ [x] ∧ x.final = true ∧ x.lastNode = ln ∧
      Spec.hash p key ln msg = Spec.digestBytes x.output p.digestLength.toNat ∧
      Spec.uncut p key ln msg = Spec.digestBytes x.output 32 := by
  obtain ⟨_, ⟨l, x, h1, h2, h3, h4⟩, h5⟩ := Spec.absorbTrace_shape p.init 0 (Spec.keyBlock key ++ msg) ln
  refine ⟨h5, l, x, h1, h2, h3, ?_, ?_⟩ <;> rw [h4] <;> rfl

example : ∃ before x, Spec.hashTrace keyedParams.values [1, 2, 3] true bytes150 = before ++ [x] ∧ x.final = true := by
  obtain ⟨_, before, x, h, f, _⟩ := C58_shape keyedParams.values [1, 2, 3] true bytes150
  exact ⟨before, x, h, f⟩

/-- C58: the counters of the compressions of a hash increase; in particular no input of the compression function
occurs twice. -/
theorem C58_counters (p : Spec.Params) (key : List U8) (ln : Bool) (msg : List U8)
    (hlen : (Spec.keyBlock key ++ msg).length < 2 ^ 64) :
    (Spec.hashTrace p key ln msg).Pairwise (fun x y => x.t.toNat < y.t.toNat) :=
  (Spec.absorbTrace_counters p.init 0 (Spec.keyBlock key ++ msg) ln (by omega)).1

example : (Spec.hashTrace keyedParams.values [1, 2, 3] true bytes150).Pairwise (fun x y => x.t.toNat < y.t.toNat) :=
  C58_counters _ _ _ _ (by simp [Spec.keyBlock, length150])

/-- C58: what the compressions are given for one message is never a beginning of what they are given for another
one. -/
theorem C58_prefix_free (p p' : Spec.Params) (key key' : List U8) (hk : key.length = key'.length) (ln ln' : Bool)
    (msg msg' : List U8) (hlen : (Spec.keyBlock key ++ msg).length < 2 ^ 64)
    (hlen' : (Spec.keyBlock key' ++ msg').length < 2 ^ 64)
    (h : (Spec.hashTrace p key ln msg).map Spec.FInput.message <+:
      (Spec.hashTrace p' key' ln' msg').map Spec.FInput.message) :
    key = key' ∧ msg = msg' ∧ ln = ln' := by
  obtain ⟨e, el⟩ := Spec.absorbTrace_prefix _ _ 0 _ _ ln ln' (by omega) (by omega) h
  obtain ⟨e1, e2⟩ := Spec.keyBlock_append_inj hk e
  exact ⟨e1, e2, el⟩

example : ¬ (Spec.hashTrace (Spec.sequential 32 0) [] false (bytes150.take 64)).map Spec.FInput.message <+:
    (Spec.hashTrace (Spec.sequential 32 0) [] false bytes150).map Spec.FInput.message := by
  intro h
  have := congrArg List.length (C58_prefix_free _ _ [] [] rfl _ _ _ _ (by simp [Spec.keyBlock, length150])
    (by simp [Spec.keyBlock, length150]) h).2.1
  simp [length150] at this

/-- C58: the `Hash` that `finalize` returns (the digest, and even the bytes that it holds without showing them, C57)
is not handed on from one compression to the next in the computation of any other hash, unless the compression
function has been seen to collide. Here the other computation is that of any data from any start; the examples below
name those of BLAKE2s and of the nodes of BLAKE2sp. So a digest is not a point from which the hash of a longer message
could be computed. -/
theorem C58_no_extension (E : Env) (hE : E.WF) (p : Params) (hp : p.Accepted) (ops : List Op) (s s' : State) (d : Hash)
    (hs : Reaches E p ops s) (hd : s.finalize E = .ok (s', d))
    (start : Fin 8 → Spec.Word) (data : List U8) (ln : Bool) (h : Fin 8 → Spec.Word)
    (hh : Spec.PassesThrough (Spec.absorbTrace start 0 data ln) h)
    (e : d.shown ++ d.hidden = Spec.digestBytes h 32) :
    Spec.Collide (Spec.hashTrace p.values p.keyBytes (lastFlag p.lastNode ops) (fed ops))
      (Spec.absorbTrace start 0 data ln) :=
  Spec.collide_of_passes hh ((C57_finalize E hE p hp ops s hs s' d hd).2.symm.trans e)

/-- C58: likewise for the `Hash` that `finalize` of `blake2sp` returns, without a key (or with a key and short
input, see C30). -/
theorem C58_sp_no_extension (E : Env) (hE : E.WF) (p : Sp.Params) (hp : p.Accepted) (ops : List Sp.Op)
    (hk : p.keyLength ≠ 0 → Sp.AllBuffered 0 ops) (s s' : Sp.State) (d : Hash)
    (hs : Sp.Reaches E p ops s) (hd : s.finalize E = .ok (s', d))
    (start : Fin 8 → Spec.Word) (data : List U8) (ln : Bool) (h : Fin 8 → Spec.Word)
    (hh : Spec.PassesThrough (Spec.absorbTrace start 0 data ln) h)
    (e : d.shown ++ d.hidden = Spec.digestBytes h 32) :
    Spec.Collide (Spec.Sp.hashTrace p.hashLength p.keyBytes (Sp.fed ops)) (Spec.absorbTrace start 0 data ln) := by
  have c := Spec.collide_of_passes hh ((C57_sp_finalize E hE p hp ops hk s s' hs d hd).2.symm.trans e)
  exact c.mono (fun x hx => List.mem_append_right _ hx) (fun x hx => hx)

/-- The computations that are meant: BLAKE2s, and the nodes of BLAKE2sp. -/
example (p : Spec.Params) (key msg : List U8) (ln : Bool) (n : U8) (i : Fin 8) :
    Spec.hashTrace p key ln msg = Spec.absorbTrace p.init 0 (Spec.keyBlock key ++ msg) ln ∧
    Spec.Sp.leafTrace n key msg i = Spec.absorbTrace
      (Spec.Sp.nodeParams n (BitVec.ofNat 8 key.length) (BitVec.ofNat 48 i.val) 0).init 0
      (Spec.keyBlock key ++ Spec.Sp.leafInput i.val msg) (i.val == 7) ∧
    Spec.Sp.hashTrace n key msg = (List.finRange 8).flatMap (Spec.Sp.leafTrace n key msg) ++
      Spec.absorbTrace (Spec.Sp.nodeParams n (BitVec.ofNat 8 key.length) 0 1).init 0
        ((List.finRange 8).flatMap (Spec.Sp.leaf n key msg)) true :=
  ⟨rfl, rfl, rfl⟩

/-- A chaining value that is handed on: the one after the first block of 100 bytes. -/
example : ∃ h, Spec.PassesThrough (Spec.hashTrace (Spec.sequential 32 0) [] false (List.replicate 100 7)) h := by
  unfold Spec.hashTrace
  rw [Spec.absorbTrace, if_neg (by decide)]
  dsimp only
  rw [Spec.absorbTrace.eq_def, if_pos (by decide)]
  exact ⟨_, [], _, _, [], rfl, rfl, rfl⟩

/-- 300 bytes with a key: unless there is a collision, the digest differs from all chaining values handed on on the way
to the hash of any continuation of the message. -/
example : ∃ s s' d, Reaches debugAvx2 keyedParams someOps s ∧ s.finalize debugAvx2 = .ok (s', d) ∧
    ∀ more h, Spec.PassesThrough (Spec.hashTrace keyedParams.values [1, 2, 3] false (fed someOps ++ more)) h →
      d.shown ++ d.hidden = Spec.digestBytes h 32 →
      Spec.Collide (Spec.hashTrace keyedParams.values keyedParams.keyBytes (lastFlag keyedParams.lastNode someOps)
        (fed someOps)) (Spec.hashTrace keyedParams.values [1, 2, 3] false (fed someOps ++ more)) := by
  obtain ⟨s, h⟩ := reaches_someOps debugAvx2 (by decide)
  obtain ⟨s', d, e, _⟩ := finalize_ok (h.rep (by decide) keyedParams_accepted.valid)
  exact ⟨s, s', d, h, e, fun more g hg he => C58_no_extension debugAvx2 (by decide) _ keyedParams_accepted someOps s s'
    d h e _ _ _ g hg he⟩

example : ∃ s s' d, Sp.Reaches debugAvx2 Sp.keyedParams Sp.shortOps s ∧ s.finalize debugAvx2 = .ok (s', d) ∧
    ∀ i msg h, Spec.PassesThrough (Spec.Sp.leafTrace 32 [] msg i) h → d.shown ++ d.hidden = Spec.digestBytes h 32 →
      Spec.Collide (Spec.Sp.hashTrace Sp.keyedParams.hashLength Sp.keyedParams.keyBytes (Sp.fed Sp.shortOps))
        (Spec.Sp.leafTrace 32 [] msg i) := by
  obtain ⟨s, hs⟩ := Sp.reaches_shortOps debugAvx2 (by decide)
  have v := Sp.keyedParams_accepted.valid
  obtain ⟨x, e, _⟩ := ((hs.abs (by decide) v fun _ => Sp.shortOps_buffered).finalize v).elim
    (Sp.not_bad_fed v (fun _ => by rw [Sp.length_shortOps]; decide) fun _ => Sp.shortOps_buffered)
  exact ⟨s, x.1, x.2, hs, e, fun i msg h hh he => C58_sp_no_extension debugAvx2 (by decide) _ Sp.keyedParams_accepted
    Sp.shortOps (fun _ => Sp.shortOps_buffered) s x.1 x.2 hs e _ _ _ h hh he⟩

end Blake2s
