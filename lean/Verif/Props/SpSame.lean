import Verif.Proofs.SpSame
import Verif.Props.Sp
/-!
# C36 for BLAKE2sp: which states can be told apart
-/

namespace Blake2s.Sp

/-- C36 for BLAKE2sp as stated (of `Debug` it asks nothing): two histories over the same parameters that feed the same
bytes lead to states that no further calls can tell apart. It is false: `C36_blake2sp_false`. -/
def C36Sp : Prop :=
  ∀ (E : Env), E.WF → ∀ (p : Params), p.Accepted → ∀ (a b : List Op) (s t : State),
    Reaches E p a s → Reaches E p b t → fed a = fed b →
    ∀ after, Fits E (fed a ++ fed after).length → seen E (s.run E after) = seen E (t.run E after)

/-- C36 for BLAKE2sp states without a key. Missing: keyed states that have left the buffer, where it is false, and the
`Debug` text, which shows how the input was cut (`C36_blake2sp_debug_false`). -/
theorem C36_blake2sp_partial (E : Env) (hE : E.WF) (p : Params) (hp : p.Accepted) (hk : p.keyLength = 0)
    (a b : List Op) (s t : State) (hs : Reaches E p a s) (ht : Reaches E p b t) (hfed : fed a = fed b)
    (after : List Op) (h : Fits E (fed a ++ fed after).length) :
    seen E (s.run E after) = seen E (t.run E after) := by
  have v := hp.valid
  have hsh : ∀ n ops, Short p n ops := fun _ _ h => absurd hk h
  have as := hs.abs hE v (hsh _ _)
  have bt := ht.abs hE v (hsh _ _)
  rw [← hfed] at bt
  have nb : ¬ Bad E p (fed a ++ fed after) := not_bad v h (fun h => absurd hk h)
  obtain ⟨x, hx, ax, dx⟩ := (run_ends v after as (hsh _ _)).elim nb
  obtain ⟨y, hy, ay, dy⟩ := (run_ends v after bt (hsh _ _)).elim nb
  have hxy : x.2 = y.2 := dx.unique dy
  have nc : ¬ (E.overflowChecks = true ∧ 2 ^ 64 ≤ (if p.keyLength = 0 then 0 else 512) +
      (fed a ++ fed after).length) := by
    rintro ⟨ho, hl⟩
    have := h ho
    rw [if_pos hk] at hl
    omega
  obtain ⟨kx, ex, hkx, _⟩ := (ax.count v).elim nc
  obtain ⟨ky, ey, hky, _⟩ := (ay.count v).elim nc
  unfold seen
  rw [hx, hy]
  simp only [bind, Except.bind, ex, ey, hkx, hky, hxy]

example : ∃ s t, Reaches debugAvx2 shortParams [.update bytes150, .write bytes150] s ∧
    Reaches debugAvx2 shortParams shortOps t ∧
    seen debugAvx2 (s.run debugAvx2 longOps) = seen debugAvx2 (t.run debugAvx2 longOps) := by
  have e : fed [.update bytes150, .write bytes150] = fed shortOps := by simp [fed, shortOps]
  have acc := shortParams_accepted
  obtain ⟨s0, s, l1, e1, r1, -⟩ := C28_finalize debugAvx2 (by decide) _ acc rfl [.update bytes150, .write bytes150]
    (fun _ => by rw [e, length_shortOps]; decide)
  obtain ⟨t0, t, l2, e2, r2, -⟩ := C28_finalize debugAvx2 (by decide) _ acc rfl shortOps
    (fun _ => by rw [length_shortOps]; decide)
  exact ⟨s, t, ⟨s0, l1, e1, r1⟩, ⟨t0, l2, e2, r2⟩, C36_blake2sp_partial debugAvx2 (by decide) _ acc rfl _ _ s t
    ⟨s0, l1, e1, r1⟩ ⟨t0, l2, e2, r2⟩ e longOps
    (fun _ => by rw [List.length_append, e, length_shortOps, length_longOps]; decide)⟩

/-- C36 for all BLAKE2sp states, keyed or not, with the one thing that matters besides: two histories over the same
parameters that feed the same bytes and have passed on the same number of rows to the leaves (`rowsAfter`) lead to
states that no further calls can tell apart, panics and `Debug` included. -/
theorem C36_blake2sp_rows (E : Env) (hE : E.WF) (p : Params) (hp : p.Accepted)
    (a b : List Op) (s t : State) (hs : Reaches E p a s) (ht : Reaches E p b t) (hfed : fed a = fed b)
    (hrows : rowsAfter 0 0 a = rowsAfter 0 0 b) (after : List Op) :
    seen E (s.run E after) = seen E (t.run E after) ∧
      (s.run E after >>= fun x => x.1.debug E) = (t.run E after >>= fun x => x.1.debug E) := by
  have v := hp.valid
  rcases (hs.same hE v ht hfed hrows).run v after with ⟨f, e1, e2⟩ | ⟨s', t', l, e1, e2, q⟩
  · rw [e1, e2]; exact ⟨rfl, rfl⟩
  · rw [e1, e2]
    refine ⟨?_, q.debug v⟩
    show (s'.getCount E >>= fun c => pure (c, l)) = (t'.getCount E >>= fun c => pure (c, l))
    rw [q.count v]

/-- Two keyed states, one of which was finalized in between. -/
example : ∃ s t, Reaches debugAvx2 keyedParams [.update bytes150, .write bytes150] s ∧
    Reaches debugAvx2 keyedParams shortOps t ∧
    seen debugAvx2 (s.run debugAvx2 longOps) = seen debugAvx2 (t.run debugAvx2 longOps) := by
  have e : fed [.update bytes150, .write bytes150] = fed shortOps := by simp [fed, shortOps]
  have b : AllBuffered 0 [.update bytes150, .write bytes150] := by
    simp only [AllBuffered, length150]
    decide
  have acc := keyedParams_accepted
  obtain ⟨s0, s, l1, e1, r1, -⟩ := C30_partial debugAvx2 (by decide) _ acc [.update bytes150, .write bytes150]
    (fun _ => by rw [e, length_shortOps]; decide) (fun _ => b)
  obtain ⟨t, ht⟩ := reaches_shortOps debugAvx2 (by decide)
  exact ⟨s, t, ⟨s0, l1, e1, r1⟩, ht, (C36_blake2sp_rows debugAvx2 (by decide) _ acc _ _ s t
    ⟨s0, l1, e1, r1⟩ ht e (by rw [(rowsAfter_zero _ 0).mpr b, (rowsAfter_zero _ 0).mpr shortOps_buffered]) longOps).1⟩

/-- C36 for BLAKE2sp is false: two keyed states that have been fed the same 961 bytes, in one call and in two, and
return different digests. -/
theorem C36_blake2sp_false : ¬ C36Sp := by
  intro h
  obtain ⟨s, s1, s2, d1, d2, e, h1, h2, hd2, hd1⟩ := C30_release_wrong
  have split : ∀ (u : State) (ops : List Op) (x : State) (d : Hash), u.run plain (ops ++ [.finalize]) = .ok (x, [d]) →
      (∀ op ∈ ops, ∃ b, op = .update b) → ∃ y, u.run plain ops = .ok (y, []) ∧ y.run plain [.finalize] = .ok (x, [d]) := by
    intro u ops
    induction ops generalizing u with
    | nil => exact fun x d hx _ => ⟨u, rfl, hx⟩
    | cons op ops ih =>
      intro x d hx ho
      obtain ⟨b, rfl⟩ := ho op (List.mem_cons_self ..)
      have hx : (u.update plain b >>= fun t => t.run plain (ops ++ [.finalize])) = .ok (x, [d]) := hx
      show ∃ y, (u.update plain b >>= fun t => t.run plain ops) = .ok (y, []) ∧ _
      cases eu : u.update plain b with
      | error f => rw [eu] at hx; cases hx
      | ok t =>
        rw [eu] at hx
        exact ih t x d hx (fun o m => ho o (List.mem_cons_of_mem _ m))
  obtain ⟨y1, r1, f1⟩ := split s [.update (List.replicate 961 0)] s1 d1 h1
    (fun op m => ⟨_, List.mem_singleton.mp m⟩)
  obtain ⟨y2, r2, f2⟩ := split s [.update [0], .update (List.replicate 960 0)] s2 d2 h2
    (fun op m => by
      rcases List.mem_cons.mp m with m | m
      · exact ⟨_, m⟩
      · exact ⟨_, List.mem_singleton.mp m⟩)
  have hf : fed [.update (List.replicate 961 0)] = fed [.update [0], .update (List.replicate 960 0)] := by
    show List.replicate (960 + 1) (0 : U8) ++ [] = [0] ++ (List.replicate 960 0 ++ [])
    rw [List.append_nil, List.append_nil, List.replicate_succ]
    rfl
  have := h plain (by decide) keyed1 keyed1_accepted _ _ y1 y2 ⟨s, [], e, r1⟩ ⟨s, [], e, r2⟩ hf [.finalize]
    (fun ho => absurd ho (by decide))
  rw [f1, f2] at this
  have c1 := C29_count_exact plain (by decide) keyed1 keyed1_accepted oneUpdate s1 ⟨s, _, e, h1⟩ _ rfl
  have c2 := C29_count_exact plain (by decide) keyed1 keyed1_accepted twoUpdates s2 ⟨s, _, e, h2⟩ _ rfl
  rw [if_neg (fun q => absurd q.1 (by decide))] at c1 c2
  unfold seen at this
  simp only [bind, Except.bind, c1, c2, pure, Except.pure] at this
  have k : d1 = d2 := by
    injection this with this
    injection this with _ this
    injection this
  rw [k, hd2] at hd1
  exact hd1 rfl

/-- The `Debug` text tells states apart that have been fed the same bytes, also without a key: it shows the bytes that
each leaf has counted, and so how the input was cut. -/
theorem C36_blake2sp_debug_false : ∃ (a b : List Op), fed a = fed b ∧ ∀ (E : Env), E.WF →
    ∃ s t, Reaches E Params.new a s ∧ Reaches E Params.new b t ∧ s.debug E ≠ t.debug E := by
  have hf : fed [.update (List.replicate 961 0)] = fed [.update [0], .update (List.replicate 960 0)] := by
    show List.replicate (960 + 1) (0 : U8) ++ [] = [0] ++ (List.replicate 960 0 ++ [])
    rw [List.append_nil, List.append_nil, List.replicate_succ]
    rfl
  have hl : (fed [.update (List.replicate 961 0)]).length = 961 := by
    show (List.replicate 961 (0 : U8) ++ []).length = 961
    rw [List.append_nil, List.length_replicate]
  refine ⟨[.update (List.replicate 961 0)], [.update [0], .update (List.replicate 960 0)], hf, fun E hE => ?_⟩
  have acc : Params.new.Accepted := ⟨[], rfl⟩
  have fits : Fits E 961 := fun _ => by decide
  obtain ⟨s0, s, l1, e, r1, -⟩ := C28_finalize E hE Params.new acc rfl [.update (List.replicate 961 0)] (by rw [hl]; exact fits)
  obtain ⟨t0, t, l2, e', r2, -⟩ := C28_finalize E hE Params.new acc rfl [.update [0], .update (List.replicate 960 0)]
    (by rw [← hf, hl]; exact fits)
  have rs : Reaches E Params.new [.update (List.replicate 961 0)] s := ⟨s0, l1, e, r1⟩
  have rt : Reaches E Params.new [.update [0], .update (List.replicate 960 0)] t := ⟨t0, l2, e', r2⟩
  refine ⟨s, t, rs, rt, ?_⟩
  have as := rs.absN hE acc.valid
  have bt := rt.absN hE acc.valid
  rw [show rowsAfter 0 0 [.update (List.replicate 961 0)] = 1 by decide +kernel] at as
  rw [show rowsAfter 0 0 [.update [0], .update (List.replicate 960 0)] = 0 by decide +kernel, ← hf] at bt
  clear rs rt r1 r2 hf
  generalize fed [.update (List.replicate 961 0)] = data at as bt hl
  have es := Exact.sp_debug_sim (x := ⟨32, [], data, 1⟩) ⟨Params.new, acc.valid, rfl, as, fun _ h => absurd rfl h⟩
  have et := Exact.sp_debug_sim (x := ⟨32, [], data, 0⟩) ⟨Params.new, acc.valid, rfl, bt, fun _ h => absurd rfl h⟩
  have cnt : ∀ n, Exact.SpState.count (Exact.buildOf E) ⟨32, [], data, n⟩ = .ok 961 := by
    intro n
    unfold Exact.SpState.count
    refine (if_neg (fun q => ?_)).trans ?_
    · have h : 2 ^ 64 ≤ 0 + data.length := q.2
      omega
    · show Except.ok (BitVec.ofNat 64 (0 + data.length)) = _
      rw [hl]
      rfl
  rw [es, et]
  unfold Exact.SpState.debug
  rw [cnt, cnt]
  have leaf : ∀ n, Exact.SpState.debugLeaf ⟨32, [], data, n⟩ = Exact.SpState.debugLeaf ⟨32, [], [], n⟩ := fun _ => rfl
  have root : ∀ n, Exact.SpState.debugRoot ⟨32, [], data, n⟩ = Exact.SpState.debugRoot ⟨32, [], [], n⟩ := fun _ => rfl
  rw [leaf, leaf, root, root]
  intro h
  have h := Except.ok.inj h
  revert h
  decide +kernel

end Blake2s.Sp
