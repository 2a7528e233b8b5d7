import Verif.Proofs.SpParams
import Verif.Proofs.ParamsInj
import Verif.Proofs.Refine
/-!
# The nodes of a new `blake2sp::State`
-/

namespace Blake2s.Sp

/-- The key array holds the key followed by zeros. -/
theorem Params.Accepted.padded_key {p : Params} (h : p.Accepted) : padded 32 p.keyBytes = p.key := by
  have step : ∀ (calls : List Setter) (q : Params), padded 32 q.keyBytes = q.key →
      q.setAll calls = .ok p → padded 32 p.keyBytes = p.key := by
    intro calls
    induction calls with
    | nil => intro q hq e; cases e; exact hq
    | cons c cs ih =>
      intro q hq e
      unfold Params.setAll at e
      cases e' : q.set c with
      | error f => rw [e'] at e; cases e
      | ok q' =>
        rw [e'] at e
        refine ih q' ?_ e
        cases c with
        | hashLength n =>
          simp only [Params.set, setHashLength_eq] at e'
          split at e'
          · cases e'; exact hq
          · cases e'
        | key k =>
          simp only [Params.set, setKey_eq] at e'
          split at e'
          · rename_i hk
            cases e'
            show padded 32 ((padded 32 k).toList.take (BitVec.ofNat 8 k.length).toNat) = padded 32 k
            rw [toNat_ofNat8 _ hk]
            congr 1
            apply List.ext_getElem
            · simp; omega
            · intro i h1 h2
              simp [padded, h2]
          · cases e'
  obtain ⟨calls, h⟩ := h
  exact step calls Params.new (by decide) h

/-- How the nodes of a new state start. -/
theorem toState_start {E : Env} {p : Params} {s : State} (hE : E.WF) (v : p.Valid)
    (h : p.toState E = .ok s) :
    (∀ i : Fin 8, toFn s.leaves[i].h =
        (Spec.Sp.nodeParams p.hashLength p.keyLength (BitVec.ofNat 48 i.val) 0).init ∧
      s.leaves[i].buf.toList.take s.leaves[i].buflen.toNat = Spec.keyBlock p.keyBytes) ∧
    toFn s.root.h = (Spec.Sp.nodeParams p.hashLength p.keyLength 0 1).init := by
  obtain ⟨s', e, r⟩ := withParams_ok E hE p v
  have : s' = s := by
    have h' : State.withParams E p = .ok s := h
    rw [e] at h'; cases h'; rfl
  subst this
  refine ⟨fun i => ?_, ?_⟩
  · have w := r.rows.weak i
    exact ⟨w.h, by simpa using w.buf⟩
  · exact (r.root.start (by simp)).h

theorem node_inj {a b c d e f g h : _} (x : (Spec.Sp.nodeParams a b c d).init =
    (Spec.Sp.nodeParams e f g h).init) : a = e ∧ b = f ∧ c = g ∧ d = h := by
  have := spec_init_injective x
  exact ⟨congrArg Spec.Params.digestLength this, congrArg Spec.Params.keyLength this,
    congrArg Spec.Params.nodeOffset this, congrArg Spec.Params.nodeDepth this⟩

end Blake2s.Sp
