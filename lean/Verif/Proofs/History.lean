import Verif.Proofs.Setters
/-!
# Histories of calls on one `State`
-/

namespace Blake2s

/-- The configuration after a history. -/
def Cfg.after (c : Cfg) : List Op → Cfg
  | [] => c
  | .setLastNode b :: ops => Cfg.after { c with lastNode := b } ops
  | .forcePortable :: ops => Cfg.after { c with fn := .portable } ops
  | _ :: ops => Cfg.after c ops

/-- `Cfg.hashes` for every digest a history returns. -/
def Cfg.all (c : Cfg) (data : List U8) : List Op → List Hash → Prop
  | [], hs => hs = []
  | .update b :: ops, hs => c.all (data ++ b) ops hs
  | .write b :: ops, hs => c.all (data ++ b) ops hs
  | .flush :: ops, hs => c.all data ops hs
  | .finalize :: ops, hs => ∃ h t, hs = h :: t ∧ c.hashes data h ∧ c.all data ops t
  | .setLastNode b :: ops, hs => Cfg.all { c with lastNode := b } data ops hs
  | .forcePortable :: ops, hs => Cfg.all { c with fn := .portable } data ops hs

theorem run_ends {E : Env} (ops : List Op) {c : Cfg} {data : List U8} {s : State}
    (r : Rep E c data s) :
    Ends (s.run E ops) (TooLong E (data ++ fed ops)) (fun x =>
      Rep E (c.after ops) (data ++ fed ops) x.1 ∧ c.all data ops x.2) := by
  induction ops generalizing c data s with
  | nil => exact Ends.pure ⟨by simpa [fed, Cfg.after] using r, rfl⟩
  | cons op ops ih =>
    cases op with
    | update b =>
      rw [fed, ← List.append_assoc]
      refine Ends.bind ((update_ends r b).mono ?_ (fun _ h => h)) (fun s' r' => ih r')
      rintro ⟨h1, h2⟩
      exact ⟨h1, by rw [List.length_append]; omega⟩
    | write b =>
      rw [fed, ← List.append_assoc]
      refine Ends.bind (post := fun x => Rep E c (data ++ b) x.1) ?_ (fun s' r' => ih r')
      unfold State.write
      refine Ends.bind ((update_ends r b).mono ?_ (fun _ h => h)) (fun s' r' => Ends.pure r')
      rintro ⟨h1, h2⟩
      exact ⟨h1, by rw [List.length_append]; omega⟩
    | flush => exact ih r
    | finalize =>
      obtain ⟨s', h, e, r', hb, hl, _⟩ := finalize_ok r
      unfold State.run
      rw [e]
      refine Ends.bind (r := s'.run E ops) (ih r') ?_
      rintro ⟨s2, hs⟩ ⟨r2, ha⟩
      exact Ends.pure ⟨r2, h, hs, rfl, ⟨hb, hl⟩, ha⟩
    | setLastNode b => exact ih (setLastNode_rep r b)
    | forcePortable => exact ih (forcePortable_rep r)

theorem Cfg.all_unique {ops : List Op} {c d : Cfg} {data : List U8} {a b : List Hash}
    (h0 : c.h0 = d.h0) (h1 : c.lastNode = d.lastNode) (h2 : c.hashLength = d.hashLength)
    (ha : c.all data ops a) (hb : d.all data ops b) : a = b := by
  induction ops generalizing c d data a b with
  | nil => exact Eq.trans ha (Eq.symm hb)
  | cons op ops ih =>
    cases op with
    | update i => exact ih h0 h1 h2 ha hb
    | write i => exact ih h0 h1 h2 ha hb
    | flush => exact ih h0 h1 h2 ha hb
    | finalize =>
      obtain ⟨x, t, rfl, hx, ht⟩ := ha
      obtain ⟨y, u, rfl, hy, hu⟩ := hb
      rw [ih h0 h1 h2 ht hu]
      have : c.hashes data y := ⟨by rw [hy.1, h0, h1], by rw [hy.2, h2]⟩
      rw [Cfg.hashes_unique hx this]
    | setLastNode i => exact ih (c := { c with lastNode := i }) (d := { d with lastNode := i }) h0 rfl h2 ha hb
    | forcePortable =>
      exact ih (c := { c with fn := .portable }) (d := { d with fn := .portable }) h0 h1 h2 ha hb

/-- The digests of a history in terms of the specification. -/
theorem Cfg.all_digests {ops : List Op} {p : Spec.Params} {key : List U8} {c : Cfg}
    {done : List U8} {hs : List Hash} (h0 : c.h0 = p.init) (h2 : c.hashLength = p.digestLength)
    (hl : p.digestLength.toNat ≤ 32) (ha : c.all (Spec.keyBlock key ++ done) ops hs) :
    hs.mapM Hash.asBytes = .ok (digests p key c.lastNode done ops) := by
  induction ops generalizing c done hs with
  | nil =>
    have : hs = [] := ha
    rw [this]; rfl
  | cons op ops ih =>
    cases op with
    | update i =>
      apply ih h0 h2
      rw [← List.append_assoc]; exact ha
    | write i =>
      apply ih h0 h2
      rw [← List.append_assoc]; exact ha
    | flush => exact ih h0 h2 ha
    | finalize =>
      obtain ⟨x, t, rfl, hx, ht⟩ := ha
      rw [List.mapM_cons, Cfg.hashes_asBytes hx (by rw [h2]; exact hl), ih h0 h2 ht, h0, h2]
      rfl
    | setLastNode i => exact ih (c := { c with lastNode := i }) h0 h2 ha
    | forcePortable => exact ih (c := { c with fn := .portable }) h0 h2 ha

theorem after_h0 (ops : List Op) (c : Cfg) : (c.after ops).h0 = c.h0 := by
  induction ops generalizing c with
  | nil => rfl
  | cons op ops ih => cases op <;> exact ih _

theorem after_hashLength (ops : List Op) (c : Cfg) : (c.after ops).hashLength = c.hashLength := by
  induction ops generalizing c with
  | nil => rfl
  | cons op ops ih => cases op <;> exact ih _

theorem after_lastNode (ops : List Op) (c : Cfg) :
    (c.after ops).lastNode = lastFlag c.lastNode ops := by
  induction ops generalizing c with
  | nil => rfl
  | cons op ops ih => cases op <;> exact ih _

theorem Rep.notTooLong {E : Env} {c : Cfg} {data : List U8} {s : State} (r : Rep E c data s) :
    ¬ TooLong E data := by
  obtain ⟨k, w, _⟩ := r
  rintro ⟨h1, h2⟩
  have := w.fits h1
  omega

theorem Rep.count {E : Env} {c : Cfg} {data : List U8} {s : State} (r : Rep E c data s) :
    s.getCount = BitVec.ofNat 64 data.length := by
  obtain ⟨k, w, _⟩ := r
  exact w.count

theorem Reaches.rep {E : Env} {p : Params} {ops : List Op} {s : State} (hE : E.WF) (v : p.Valid)
    (h : Reaches E p ops s) :
    Rep E ((p.cfg E).after ops) (Spec.keyBlock p.keyBytes ++ fed ops) s := by
  obtain ⟨s0, hs, h0, h1⟩ := h
  obtain ⟨s', e, r⟩ := withParams_ok E hE p v
  have : s' = s0 := by
    have h' : State.withParams E p = .ok s0 := h0
    rw [e] at h'; cases h'; rfl
  subst this
  rcases run_ends ops r with ⟨x, hx, r', _⟩ | ⟨hx, _⟩
  · rw [hx] at h1; cases h1; exact r'
  · rw [hx] at h1; cases h1

/-- Runs from two states with the same abstract content give the same outputs. -/
theorem run_same {E F : Env} {c d : Cfg} {data : List U8} {s t : State} (hov : E.overflowChecks = F.overflowChecks)
    (rs : Rep E c data s) (rt : Rep F d data t) (h0 : c.h0 = d.h0) (h1 : c.lastNode = d.lastNode)
    (h2 : c.hashLength = d.hashLength) (ops : List Op) :
    (s.run E ops).map (fun x => (x.1.getCount, x.1.debug, x.2)) =
      (t.run F ops).map (fun x => (x.1.getCount, x.1.debug, x.2)) := by
  have htl : ∀ l, TooLong E l ↔ TooLong F l := by intro l; unfold TooLong; rw [hov]
  rcases run_ends ops rs with ⟨x, hx, rx, ax⟩ | ⟨hx, hbad⟩
  · rcases run_ends ops rt with ⟨y, hy, ry, ay⟩ | ⟨hy, hbad⟩
    · rw [hx, hy]
      have e1 : x.1.getCount = y.1.getCount := by rw [rx.count, ry.count]
      have e2 : x.2 = y.2 := Cfg.all_unique h0 h1 h2 ax ay
      have e3 : x.1.debug = y.1.debug := by
        obtain ⟨_, wx, _⟩ := rx
        obtain ⟨_, wy, _⟩ := ry
        unfold State.debug
        rw [wx.count, wy.count, wx.hl, wy.hl, wx.ln, wy.ln, after_hashLength, after_hashLength, h2,
          after_lastNode, after_lastNode, h1]
      show Except.ok (x.1.getCount, x.1.debug, x.2) = Except.ok (y.1.getCount, y.1.debug, y.2)
      rw [e1, e2, e3]
    · exact absurd ((htl _).mpr hbad) rx.notTooLong
  · rcases run_ends ops rt with ⟨y, hy, ry, ay⟩ | ⟨hy, _⟩
    · exact absurd ((htl _).mp hbad) ry.notTooLong
    · rw [hx, hy]

theorem fed_append (a b : List Op) : fed (a ++ b) = fed a ++ fed b := by
  induction a with
  | nil => rfl
  | cons op ops ih => cases op <;> simp [fed, ih]

theorem run_append (E : Env) (s : State) (a b : List Op) :
    s.run E (a ++ b) = (s.run E a >>= fun x => x.1.run E b >>= fun y => pure (y.1, x.2 ++ y.2)) := by
  have hp : ∀ (r : R (State × List Hash)), (r >>= fun y => pure (y.1, [] ++ y.2)) = r := by
    intro r; cases r <;> rfl
  induction a generalizing s with
  | nil =>
    show s.run E b = (s.run E b >>= fun y => pure (y.1, [] ++ y.2))
    rw [hp]
  | cons op ops ih =>
    cases op with
    | update i =>
      show (s.update E i >>= fun t => t.run E (ops ++ b)) =
        ((s.update E i >>= fun t => t.run E ops) >>= _)
      cases s.update E i with
      | error f => rfl
      | ok t => exact ih t
    | write i =>
      show (s.write E i >>= fun t => t.1.run E (ops ++ b)) =
        ((s.write E i >>= fun t => t.1.run E ops) >>= _)
      cases s.write E i with
      | error f => rfl
      | ok t => exact ih t.1
    | flush => exact ih s
    | finalize =>
      show (s.finalize E >>= fun x => x.1.run E (ops ++ b) >>= fun y => pure (y.1, x.2 :: y.2)) =
        ((s.finalize E >>= fun x => x.1.run E ops >>= fun y => pure (y.1, x.2 :: y.2)) >>= _)
      cases s.finalize E with
      | error f => rfl
      | ok x =>
        show (x.1.run E (ops ++ b) >>= fun y => pure (y.1, x.2 :: y.2)) =
          ((x.1.run E ops >>= fun y => pure (y.1, x.2 :: y.2)) >>= _)
        rw [ih x.1]
        cases x.1.run E ops with
        | error f => rfl
        | ok z =>
          show ((z.1.run E b >>= fun y => pure (y.1, z.2 ++ y.2)) >>= _) =
            (z.1.run E b >>= _)
          cases z.1.run E b <;> rfl
    | setLastNode i => exact ih _
    | forcePortable => exact ih _

theorem fed_chunks (chunks : List (List U8)) : fed (chunks.map Op.update) = chunks.flatten := by
  induction chunks with
  | nil => rfl
  | cons c cs ih => simp [fed, ih]

theorem all_chunks (c : Cfg) (data : List U8) (chunks : List (List U8)) (after : List Op)
    (hs : List Hash) :
    c.all data (chunks.map Op.update ++ after) hs = c.all (data ++ chunks.flatten) after hs := by
  induction chunks generalizing data with
  | nil => simp
  | cons x xs ih =>
    simp only [List.map_cons, List.cons_append, Cfg.all, ih, List.flatten_cons, List.append_assoc]

theorem after_chunks (c : Cfg) (chunks : List (List U8)) (after : List Op) :
    c.after (chunks.map Op.update ++ after) = c.after after := by
  induction chunks with
  | nil => rfl
  | cons x xs ih => exact ih

theorem split_run {E : Env} {c : Cfg} {data : List U8} {s : State} (r : Rep E c data s)
    (chunks : List (List U8)) (after : List Op) :
    (s.run E (chunks.map Op.update ++ after)).map (fun x => (x.1.getCount, x.1.debug, x.2)) =
      (s.run E (.update chunks.flatten :: after)).map (fun x => (x.1.getCount, x.1.debug, x.2)) := by
  have e1 : data ++ fed (chunks.map Op.update ++ after) =
      data ++ fed (.update chunks.flatten :: after) := by
    rw [fed_append, fed_chunks]; rfl
  rcases run_ends (chunks.map Op.update ++ after) r with ⟨x, hx, rx, ax⟩ | ⟨hx, hbad⟩
  · rcases run_ends (.update chunks.flatten :: after) r with ⟨y, hy, ry, ay⟩ | ⟨hy, hbad⟩
    · rw [hx, hy]
      rw [all_chunks] at ax
      rw [after_chunks, e1] at rx
      have ry' : Rep E (c.after after) (data ++ fed (.update chunks.flatten :: after)) y.1 := ry
      have g1 : x.1.getCount = y.1.getCount := by rw [rx.count, ry.count]
      have g2 : x.2 = y.2 := Cfg.all_unique rfl rfl rfl ax ay
      have g3 : x.1.debug = y.1.debug := by
        obtain ⟨_, wx, _⟩ := rx
        obtain ⟨_, wy, _⟩ := ry'
        unfold State.debug
        rw [wx.count, wy.count, wx.hl, wy.hl, wx.ln, wy.ln]
      show Except.ok (x.1.getCount, x.1.debug, x.2) = Except.ok (y.1.getCount, y.1.debug, y.2)
      rw [g1, g2, g3]
    · rw [← e1] at hbad
      exact absurd hbad rx.notTooLong
  · rcases run_ends (.update chunks.flatten :: after) r with ⟨y, hy, ry, ay⟩ | ⟨hy, _⟩
    · rw [e1] at hbad
      exact absurd hbad ry.notTooLong
    · rw [hx, hy]

theorem keyBlock_length' {p : Params} (v : p.Valid) :
    (Spec.keyBlock p.keyBytes).length = if p.keyLength = 0 then 0 else 64 := by
  rw [keyBlock_length _ (by rw [v.keyBytes_length]; have := v.kl; omega)]
  have : p.keyBytes = [] ↔ p.keyLength = 0 := by
    rw [← List.length_eq_zero_iff, v.keyBytes_length]
    constructor
    · intro h; apply BitVec.eq_of_toNat_eq; simpa using h
    · intro h; rw [h]; rfl
  by_cases h : p.keyLength = 0
  · rw [if_pos h, if_pos (this.mpr h)]
  · rw [if_neg h, if_neg (fun h' => h (this.mp h'))]

theorem hashOne_spec (E : Env) (hE : E.WF) (p : Params) (hp : p.Accepted) (input : List U8)
    (h : Fits E p input.length) :
    ∃ d, hashOne E p input = .ok d ∧
      d.asBytes = .ok (Spec.hash p.values p.keyBytes p.lastNode input) := by
  have v := hp.valid
  have hn : ¬ TooLong E (Spec.keyBlock p.keyBytes ++ input) := by
    rw [tooLong_iff_fits v]; simpa using h
  obtain ⟨d, e, hd, _⟩ := (hashOne_ends E hE p v input).elim hn
  exact ⟨d, e, Cfg.hashes_asBytes hd v.hl.2⟩

end Blake2s
