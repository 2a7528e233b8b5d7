import Verif.Proofs.History
import Verif.Proofs.SpHistory
/-!
# Concrete objects for the examples

The examples beside the property theorems apply them to these. They are not used in any statement of a property.
-/

namespace Blake2s

/-- A debug build on an AVX2 machine; a release build without SIMD. -/
def debugAvx2 : Env := ⟨true, true, true, true, true, true⟩
def releasePlain : Env := ⟨false, false, false, false, false, false⟩

/-- 150 bytes, all different: two blocks and a part of a third. -/
def bytes150 : List U8 := (List.range 150).map (BitVec.ofNat 8)

/-- 1500 bytes: two rows of eight blocks, and a part of a third. -/
def bytes1500 : List U8 := (List.range 1500).map (BitVec.ofNat 8)

theorem length150 : bytes150.length = 150 := by rw [bytes150, List.length_map, List.length_range]
theorem length1500 : bytes1500.length = 1500 := by rw [bytes1500, List.length_map, List.length_range]

/-- Setter calls, among them a key and a shorter digest. -/
def someCalls : List Setter := [.key [1, 2, 3], .hashLength 20, .salt [5], .nodeOffset 77, .lastNode true]

/-- What these setter calls give. -/
def keyedParams : Params := match Params.new.setAll someCalls with
  | .ok p => p
  | .error _ => Params.new

theorem keyedParams_accepted : keyedParams.Accepted := ⟨someCalls, by decide⟩

/-- The same without the key. -/
def saltedParams : Params := match Params.new.setAll someCalls.tail with
  | .ok p => p
  | .error _ => Params.new

theorem saltedParams_accepted : saltedParams.Accepted := ⟨someCalls.tail, by decide⟩

/-- The same with another key of the same length, and another last-node flag. -/
def otherParams : Params := match Params.new.setAll (someCalls ++ [.key [1, 2, 4], .lastNode false]) with
  | .ok p => p
  | .error _ => Params.new

theorem otherParams_accepted : otherParams.Accepted :=
  ⟨someCalls ++ [.key [1, 2, 4], .lastNode false], by decide⟩

/-- A history: input across blocks, a digest on the way, and both values of the last-node flag. -/
def someOps : List Op :=
  [.update bytes150, .finalize, .setLastNode false, .write bytes150, .flush, .setLastNode true]

theorem fed_someOps : fed someOps = bytes150 ++ bytes150 := by
  simp [fed, someOps]

theorem fits_short (E : Env) (p : Params) {n : Nat} (h : n < 2 ^ 60) : Fits E p n := by
  intro _
  split <;> omega

/-- Short histories lead somewhere. -/
theorem reaches (E : Env) (hE : E.WF) (p : Params) (hp : p.Accepted) (ops : List Op)
    (h : (fed ops).length < 2 ^ 60) : ∃ s, Reaches E p ops s := by
  have v := hp.valid
  obtain ⟨s, e, r⟩ := withParams_ok E hE p v
  obtain ⟨x, hx, _⟩ := (run_ends ops r).elim (by
    rw [tooLong_iff_fits v]; simpa using fits_short E p h)
  exact ⟨x.1, s, x.2, e, hx⟩

theorem reaches_someOps (E : Env) (hE : E.WF) : ∃ s, Reaches E keyedParams someOps s :=
  reaches E hE _ keyedParams_accepted _ (by
    rw [fed_someOps, List.length_append, length150]; decide)

/-- Eight different histories on states with and without a key, and eight inputs of different lengths. -/
def laneParams (i : Fin 8) : Params := if i.val % 2 = 0 then keyedParams else saltedParams
def laneOps (i : Fin 8) : List Op := [.update (bytes150.take (20 * i.val)), .finalize, .setLastNode (i.val == 5)]
def laneInput : Vector (List U8) 8 := Vector.ofFn fun i => bytes150.drop (11 * i.val)

theorem laneParams_accepted (i : Fin 8) : (laneParams i).Accepted := by
  unfold laneParams
  split
  · exact keyedParams_accepted
  · exact saltedParams_accepted

theorem length_laneOps (i : Fin 8) : (fed (laneOps i)).length < 2 ^ 59 := by
  have h : fed (laneOps i) = bytes150.take (20 * i.val) := by simp [fed, laneOps]
  rw [h, List.length_take, length150]
  omega

theorem length_laneInput (i : Fin 8) : laneInput[i].length < 2 ^ 59 := by
  have h : laneInput[i] = bytes150.drop (11 * i.val) := by simp [laneInput]
  rw [h, List.length_drop, length150]
  omega

theorem set6 (v : Vector (List U8) 8) (x : List U8) : (v.set 6 x)[(6 : Fin 8)] = x :=
  Vector.getElem_set_self (by decide)

theorem reaches_lanes (E : Env) (hE : E.WF) :
    ∃ st : Vector State 8, ∀ i : Fin 8, Reaches E (laneParams i) (laneOps i) st[i] := by
  have h := fun i => reaches E hE _ (laneParams_accepted i) (laneOps i) (by have := length_laneOps i; omega)
  exact ⟨Vector.ofFn fun i => (h i).choose, fun i => by simpa using (h i).choose_spec⟩

/-- Four and eight different inputs of two blocks each. -/
def exactInput (n : Nat) : Vector (List U8) n := Vector.ofFn fun i => (bytes150.drop i.val).take 128

theorem exactInput_lengths {n : Nat} (hn : n ≤ 8) : ExactLengths (exactInput n) 128 := by
  refine ⟨fun i => ?_, by decide, by decide⟩
  have h : (exactInput n)[i] = (bytes150.drop i.val).take 128 := by simp [exactInput]
  rw [h, List.length_take, List.length_drop, length150]
  omega

/-- The same with one byte missing from input number 3. -/
def wrongInput (n : Nat) : Vector (List U8) n :=
  Vector.ofFn fun i => (bytes150.drop i.val).take (if i.val = 3 then 127 else 128)

theorem wrongInput_lengths {n : Nat} (hn : 3 < n) : ¬ ∃ len, ExactLengths (wrongInput n) len := by
  rintro ⟨len, h, _, _⟩
  have h0 := h ⟨0, by omega⟩
  have h3 := h ⟨3, by omega⟩
  simp [wrongInput, length150] at h0 h3
  omega

namespace Sp

/-- BLAKE2sp parameters with a shorter digest, without and with a key. -/
def shortParams : Params := match Params.new.setAll [.hashLength 20] with
  | .ok p => p
  | .error _ => Params.new
def keyedParams : Params := match Params.new.setAll [.key [1, 2, 3], .hashLength 20] with
  | .ok p => p
  | .error _ => Params.new

def otherParams : Params := match Params.new.setAll [.key [1, 2, 4], .hashLength 20] with
  | .ok p => p
  | .error _ => Params.new

theorem shortParams_accepted : shortParams.Accepted := ⟨[.hashLength 20], by decide⟩
theorem keyedParams_accepted : keyedParams.Accepted := ⟨[.key [1, 2, 3], .hashLength 20], by decide⟩

theorem otherParams_accepted : otherParams.Accepted := ⟨[.key [1, 2, 4], .hashLength 20], by decide⟩

/-- A history that passes rows on, and one that stays in the buffer. -/
def longOps : List Op := [.update bytes1500, .finalize, .flush, .write bytes150]
def shortOps : List Op := [.update bytes150, .finalize, .flush, .write bytes150]

theorem fed_longOps : fed longOps = bytes1500 ++ bytes150 := by simp [fed, longOps]
theorem fed_shortOps : fed shortOps = bytes150 ++ bytes150 := by simp [fed, shortOps]
theorem length_longOps : (fed longOps).length = 1650 := by
  rw [fed_longOps, List.length_append, length1500, length150]
theorem length_shortOps : (fed shortOps).length = 300 := by
  rw [fed_shortOps, List.length_append, length150]
theorem shortOps_buffered : AllBuffered 0 shortOps := by
  simp only [AllBuffered, shortOps, length150]
  decide
theorem longOps_not_buffered : ¬ AllBuffered 0 longOps := by
  simp only [AllBuffered, longOps, length1500, length150]
  decide

theorem reaches_longOps (E : Env) (hE : E.WF) : ∃ s, Reaches E shortParams longOps s := by
  have v := shortParams_accepted.valid
  have hs : Short shortParams 0 longOps := fun h => absurd (by decide) h
  obtain ⟨s, e, a⟩ := Abs.new E hE shortParams v
  obtain ⟨x, hx, _⟩ := (run_ends v longOps a hs).elim (by
    simpa using not_bad_fed v (fun _ => by rw [length_longOps]; decide) hs)
  exact ⟨x.1, s, x.2, e, hx⟩

theorem reaches_shortOps (E : Env) (hE : E.WF) : ∃ s, Reaches E keyedParams shortOps s := by
  have v := keyedParams_accepted.valid
  have hs : Short keyedParams 0 shortOps := fun _ => shortOps_buffered
  obtain ⟨s, e, a⟩ := Abs.new E hE keyedParams v
  obtain ⟨x, hx, _⟩ := (run_ends v shortOps a hs).elim (by
    simpa using not_bad_fed v (fun _ => by rw [length_shortOps]; decide) hs)
  exact ⟨x.1, s, x.2, e, hx⟩

end Sp

end Blake2s
