import Verif.Model.Reference
import Verif.Proofs.SpHistory
/-!
# The reference implementation of the crate's tests computes BLAKE2sp
-/

namespace Blake2s.Sp

open Spec.Sp (leafInput dealt)

theorem stateWith_ok (E : Env) (hE : E.WF) (cs : List Blake2s.Setter) (p : Blake2s.Params)
    (h : Blake2s.Params.new.setAll cs = .ok p) (hk : p.keyBytes = []) :
    ∃ s, stateWith E cs = .ok s ∧ Rep E (p.cfg E) [] s := by
  have v : p.Valid := (show p.Accepted from ⟨cs, h⟩).valid
  obtain ⟨s, e, r⟩ := Blake2s.withParams_ok E hE p v
  refine ⟨s, ?_, ?_⟩
  · unfold stateWith
    rw [h]
    exact e
  · rw [hk] at r
    exact r

theorem feedChunks_ok {E : Env} {c : Fin 8 → Cfg} (rest : List U8) {k : Nat}
    {lv : Vector Blake2s.State 8} {pre : Fin 8 → List U8} (r : ∀ i : Fin 8, Rep E (c i) (pre i) lv[i])
    (hf : ∀ i, E.overflowChecks = true → (pre i).length + rest.length < 2 ^ 64) :
    ∃ lv', feedChunks E k lv (chunks rest) = .ok lv' ∧
      ∀ i : Fin 8, Rep E (c i) (pre i ++ dealt i (64 * k) rest) lv'[i] := by
  generalize hn : rest.length = n
  induction n using Nat.strongRecOn generalizing rest k lv pre with
  | _ n ih =>
    rw [chunks]
    by_cases h : rest = []
    · subst h
      rw [dif_pos rfl]
      refine ⟨lv, rfl, fun i => ?_⟩
      rw [Spec.Sp.dealt_nil, List.append_nil]
      exact r i
    · rw [dif_neg h]
      have hpos := List.length_pos_iff.mpr h
      let j : Fin 8 := ⟨k % 8, Nat.mod_lt _ (by decide)⟩
      have ht : (rest.take 64).length ≤ rest.length := by simp; omega
      obtain ⟨s, e, rs⟩ := (Blake2s.update_ends (r j) (rest.take 64)).elim (by
        rintro ⟨h1, h2⟩
        have := hf j h1
        rw [List.length_append] at h2
        omega)
      unfold feedChunks
      have e' : lv[k % 8].update E (rest.take BLOCKBYTES) = .ok s := e
      rw [e']
      simp only [bind, Except.bind]
      obtain ⟨lv', e2, r2⟩ := ih (rest.drop 64).length (by rw [List.length_drop]; omega)
        (rest.drop 64) (k := k + 1) (lv := lv.set (k % 8) s)
        (pre := fun i => pre i ++ if k % 8 = i.val then rest.take 64 else []) (by
          intro i
          simp only [Fin.getElem_fin, Vector.getElem_set]
          by_cases hi : k % 8 = i.val
          · rw [if_pos hi, if_pos hi]
            have : j = i := Fin.ext hi
            rw [← this]
            exact rs
          · rw [if_neg hi, if_neg hi, List.append_nil]
            exact r i) (by
          intro i ho
          have := hf i ho
          rw [List.length_append, List.length_drop]
          split
          · rw [List.length_take]; omega
          · rw [List.length_nil]; omega) rfl
      refine ⟨lv', e2, fun i => ?_⟩
      rw [Spec.Sp.dealt_step, ← List.append_assoc]
      exact r2 i

theorem feedRoot_ok {E : Env} {cr : Cfg} {c : Fin 8 → Cfg} {data : Fin 8 → List U8}
    (h32 : ∀ i, (c i).hashLength = 32) (is : List (Fin 8)) {lv : Vector Blake2s.State 8}
    (r : ∀ i : Fin 8, Rep E (c i) (data i) lv[i]) {pre : List U8} {root : Blake2s.State}
    (rr : Rep E cr pre root) (hf : pre.length + 32 * is.length < 2 ^ 64) :
    ∃ root', feedRoot E root (is.map fun i => lv[i]) = .ok root' ∧
      Rep E cr (pre ++ is.flatMap fun i =>
        Spec.digestBytes (Spec.absorb (c i).h0 0 (data i) (c i).lastNode) 32) root' := by
  induction is generalizing pre root with
  | nil =>
    refine ⟨root, rfl, ?_⟩
    rw [List.flatMap_nil, List.append_nil]
    exact rr
  | cons i is ih =>
    obtain ⟨s, h, e, _, hb, hl, _⟩ := finalize_ok (r i)
    have hl32 : h.len = 32 := hl.trans (h32 i)
    have ha : h.asBytes = .ok (Spec.digestBytes (Spec.absorb (c i).h0 0 (data i) (c i).lastNode) 32) := by
      rw [asBytes_ok h (by rw [hl32]; decide), hl32, ← hb]
      congr 1
      apply List.take_of_length_le
      simp
    have hlen : (Spec.digestBytes (Spec.absorb (c i).h0 0 (data i) (c i).lastNode) 32).length = 32 := by
      rw [← hb]; simp
    rw [List.length_cons] at hf
    obtain ⟨t, et, rt⟩ := (Blake2s.update_ends rr
      (Spec.digestBytes (Spec.absorb (c i).h0 0 (data i) (c i).lastNode) 32)).elim (by
        rintro ⟨_, h2⟩
        rw [List.length_append, hlen] at h2
        omega)
    obtain ⟨u, eu, ru⟩ := ih rt (by rw [List.length_append, hlen]; omega)
    refine ⟨u, ?_, ?_⟩
    · rw [List.map_cons]
      unfold feedRoot
      rw [e]
      simp only [bind, Except.bind, ha, et]
      exact eu
    · rw [List.flatMap_cons, ← List.append_assoc]
      exact ru

/-- The parameters of leaf `i` of the reference implementation. -/
def refLeaf (i : Fin 8) : Blake2s.Params :=
  { Blake2s.Params.new with
    fanout := 8, maxDepth := 2, nodeOffset := BitVec.ofNat 64 i.val, innerHashLength := 32
    lastNode := i.val == 7 }

/-- The parameters of its root. -/
def refRoot : Blake2s.Params :=
  { Blake2s.Params.new with
    fanout := 8, maxDepth := 2, nodeDepth := 1, innerHashLength := 32, lastNode := true }

theorem refLeaf_values (i : Fin 8) :
    (refLeaf i).values = Spec.Sp.nodeParams 32 0 (BitVec.ofNat 48 i.val) 0 := by
  have hoff : (BitVec.ofNat 64 i.val).setWidth 48 = BitVec.ofNat 48 i.val := by
    apply BitVec.eq_of_toNat_eq
    simp
  unfold Blake2s.Params.values refLeaf Spec.Sp.nodeParams
  simp only [hoff]
  rfl

theorem refRoot_values : refRoot.values = Spec.Sp.nodeParams 32 0 0 1 := rfl

theorem refLeaf_cfg (E : Env) (i : Fin 8) :
    ((refLeaf i).cfg E).h0 = (Spec.Sp.nodeParams 32 0 (BitVec.ofNat 48 i.val) 0).init ∧
      ((refLeaf i).cfg E).lastNode = (i.val == 7) ∧ ((refLeaf i).cfg E).hashLength = 32 :=
  ⟨congrArg Spec.Params.init (refLeaf_values i), rfl, rfl⟩

theorem refRoot_cfg (E : Env) :
    (refRoot.cfg E).h0 = (Spec.Sp.nodeParams 32 0 0 1).init ∧
      (refRoot.cfg E).lastNode = true ∧ (refRoot.cfg E).hashLength = 32 :=
  ⟨congrArg Spec.Params.init refRoot_values, rfl, rfl⟩

theorem refLeaf_digest (E : Env) (i : Fin 8) (input : List U8) :
    Spec.digestBytes (Spec.absorb ((refLeaf i).cfg E).h0 0 ([] ++ dealt i (64 * 0) input)
      ((refLeaf i).cfg E).lastNode) 32 = Spec.Sp.leaf 32 [] input i := by
  rw [(refLeaf_cfg E i).1, (refLeaf_cfg E i).2.1]
  rfl

theorem refLeaf_set (i : Fin 8) (h : i.val ≠ 7) :
    Blake2s.Params.new.setAll [.fanout 8, .maxDepth 2, .nodeOffset (BitVec.ofNat 64 i.val),
      .innerHashLength OUTBYTES] = .ok (refLeaf i) := by
  match i with
  | 0 => rfl
  | 1 => rfl
  | 2 => rfl
  | 3 => rfl
  | 4 => rfl
  | 5 => rfl
  | 6 => rfl
  | 7 => exact absurd rfl h

theorem refLeaf7_set :
    Blake2s.Params.new.setAll [.fanout 8, .maxDepth 2, .nodeOffset 7,
      .innerHashLength OUTBYTES, .lastNode true] = .ok (refLeaf 7) := rfl

theorem refRoot_set :
    Blake2s.Params.new.setAll [.fanout 8, .maxDepth 2, .nodeDepth 1,
      .innerHashLength OUTBYTES, .lastNode true] = .ok refRoot := rfl

theorem reference_digest (E : Env) (hE : E.WF) (input : List U8)
    (hf : E.overflowChecks = true → input.length < 2 ^ 64) :
    ∃ d, reference E input = .ok d ∧ Digest Params.default input d := by
  have leaf := fun (i : Fin 8) cs h => stateWith_ok E hE cs (refLeaf i) h rfl
  obtain ⟨s0, e0, r0⟩ := leaf 0 [.fanout 8, .maxDepth 2, .nodeOffset 0, .innerHashLength OUTBYTES]
    (refLeaf_set 0 (by decide))
  obtain ⟨s1, e1, r1⟩ := leaf 1 [.fanout 8, .maxDepth 2, .nodeOffset 1, .innerHashLength OUTBYTES]
    (refLeaf_set 1 (by decide))
  obtain ⟨s2, e2, r2⟩ := leaf 2 [.fanout 8, .maxDepth 2, .nodeOffset 2, .innerHashLength OUTBYTES]
    (refLeaf_set 2 (by decide))
  obtain ⟨s3, e3, r3⟩ := leaf 3 [.fanout 8, .maxDepth 2, .nodeOffset 3, .innerHashLength OUTBYTES]
    (refLeaf_set 3 (by decide))
  obtain ⟨s4, e4, r4⟩ := leaf 4 [.fanout 8, .maxDepth 2, .nodeOffset 4, .innerHashLength OUTBYTES]
    (refLeaf_set 4 (by decide))
  obtain ⟨s5, e5, r5⟩ := leaf 5 [.fanout 8, .maxDepth 2, .nodeOffset 5, .innerHashLength OUTBYTES]
    (refLeaf_set 5 (by decide))
  obtain ⟨s6, e6, r6⟩ := leaf 6 [.fanout 8, .maxDepth 2, .nodeOffset 6, .innerHashLength OUTBYTES]
    (refLeaf_set 6 (by decide))
  obtain ⟨s7, e7, r7⟩ := leaf 7 [.fanout 8, .maxDepth 2, .nodeOffset 7, .innerHashLength OUTBYTES,
    .lastNode true] refLeaf7_set
  obtain ⟨t, et, rt⟩ := stateWith_ok E hE [.fanout 8, .maxDepth 2, .nodeDepth 1,
    .innerHashLength OUTBYTES, .lastNode true] refRoot refRoot_set rfl
  obtain ⟨lv, ef, rf⟩ := feedChunks_ok (E := E) (c := fun i => (refLeaf i).cfg E) input (k := 0)
    (lv := #v[s0, s1, s2, s3, s4, s5, s6, s7]) (pre := fun _ => []) (by
      intro i
      match i with
      | 0 => exact r0
      | 1 => exact r1
      | 2 => exact r2
      | 3 => exact r3
      | 4 => exact r4
      | 5 => exact r5
      | 6 => exact r6
      | 7 => exact r7) (by
      intro i ho
      have := hf ho
      simpa using this)
  obtain ⟨u, eu, ru⟩ := feedRoot_ok (c := fun i => (refLeaf i).cfg E)
    (fun i => (refLeaf_cfg E i).2.2) (List.finRange 8)
    rf rt (by decide)
  obtain ⟨_, d, ed, _, hb, hl, _⟩ := finalize_ok ru
  have hlist : lv.toList = (List.finRange 8).map fun i => lv[i] := by
    apply List.ext_getElem
    · simp
    · intro i h1 h2
      simp
  refine ⟨d, ?_, ?_, hl.trans (refRoot_cfg E).2.2⟩
  · unfold reference
    rw [e0, e1, e2, e3, e4, e5, e6, e7, et]
    simp only [bind, Except.bind]
    rw [ef]
    simp only []
    rw [hlist, eu]
    simp only []
    rw [ed]
    rfl
  · rw [hb, (refRoot_cfg E).1, (refRoot_cfg E).2.1, List.nil_append]
    have hleaf := funext fun i => refLeaf_digest E i input
    rw [hleaf]
    rfl

end Blake2s.Sp
