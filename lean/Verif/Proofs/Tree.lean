import Verif.Tree
import Verif.Proofs.StdIo
import Verif.Proofs.Collision
import Verif.Proofs.Truncated

/-! Lemmas for C60. -/

namespace Spec

theorem hash_length32 (p : Params) (hp : p.digestLength = 32) (key : List Byte) (ln : Bool) (m : List Byte) :
    (Spec.hash p key ln m).length = 32 := by
  unfold Spec.hash
  rw [hp]
  exact digestBytes_length _ 32 (by decide)

theorem Tree.hash_length (p : Params) (hp : p.digestLength = 32) (key : List Byte) (t : Tree) :
    (t.hash p key).length = 32 := by
  cases t with
  | leaf o l d => rw [Tree.hash]; exact hash_length32 (p.at o 0) hp _ _ _
  | node o dep l cs => rw [Tree.hash]; exact hash_length32 (p.at o dep) hp _ _ _

theorem Tree.hashes_length (p : Params) (key : List Byte) (ts : List Tree) : (Tree.hashes p key ts).length = ts.length := by
  induction ts with
  | nil => rfl
  | cons t ts ih => simp [Tree.hashes, ih]

theorem Tree.hashes_flatten_le (p : Params) (hp : p.digestLength.toNat ≤ 32) (key : List Byte) (ts : List Tree) :
    (Tree.hashes p key ts).flatten.length ≤ 32 * ts.length := by
  induction ts with
  | nil => simp [Tree.hashes]
  | cons t ts ih =>
    have : (t.hash p key).length ≤ 32 := by
      have h : ∀ q : Params, q.digestLength = p.digestLength → ∀ ln m, (Spec.hash q key ln m).length ≤ 32 := by
        intro q hq ln m
        unfold Spec.hash
        rw [hq, digestBytes_length _ _ hp]
        exact hp
      cases t with
      | leaf o l d => rw [Tree.hash]; exact h (p.at o 0) rfl _ _
      | node o dep l cs => rw [Tree.hash]; exact h (p.at o dep) rfl _ _
    simp only [Tree.hashes, List.flatten_cons, List.length_append, List.length_cons]
    omega

theorem keyed_lt {key m : List Byte} (hk : key.length ≤ 32) (hm : m.length < 2 ^ 63) :
    (keyBlock key ++ m).length < 2 ^ 64 := by
  rw [List.length_append, Blake2s.keyBlock_length _ (by omega)]
  split <;> omega

theorem Params.at_inj {p q : Params} {o o' : BitVec 48} {d d' : Byte} (h : p.at o d = q.at o' d') :
    o = o' ∧ d = d' ∧ p.at 0 0 = q.at 0 0 := by
  cases p; cases q
  simp only [Params.at, Params.mk.injEq] at h ⊢
  obtain ⟨a, b, c, e, f, g, i, j, k, l⟩ := h
  exact ⟨g, i, a, b, c, e, f, trivial, trivial, j, k, l⟩

/-! Hashes of any length. -/

theorem absorbTrace_last_final (h : Fin 8 → Word) (off : Nat) (data : List Byte) (ln : Bool) (x : FInput)
    (e : (absorbTrace h off data ln).getLast? = some x) : x.final = true := by
  rw [absorbTrace] at e
  by_cases c : data.length ≤ 64
  · rw [if_pos c] at e
    cases e
    rfl
  · rw [if_neg c] at e
    obtain ⟨y, hy, _⟩ := absorbTrace_getLast
      (FInput.mk h (blockWords (data.take 64)) (BitVec.ofNat 64 (off + 64)) false false).output (off + 64) (data.drop 64) ln
    simp only [List.getLast?_cons] at e
    rw [hy] at e
    cases e
    exact absorbTrace_last_final _ _ _ _ _ hy
termination_by data.length
decreasing_by simp; omega

theorem Tree.CollideTo.mono {n : Nat} {a a' b b' : List FInput} (h : Tree.CollideTo n a b) (ha : ∀ x ∈ a, x ∈ a')
    (hb : ∀ x ∈ b, x ∈ b') : Tree.CollideTo n a' b' := by
  rcases h with c | ⟨x, hx, y, hy, h⟩
  · exact .inl (c.mono ha hb)
  · exact .inr ⟨x, ha x hx, y, hb y hy, h⟩

theorem hash_nearer {p p' : Params} {key key' msg msg' : List Byte} {ln ln' : Bool}
    (hk : key.length = p.keyLength.toNat) (hk' : key'.length = p'.keyLength.toNat)
    (hd : p.digestLength.toNat ≤ 32) (hd' : p'.digestLength.toNat ≤ 32)
    (hm : (keyBlock key ++ msg).length < 2 ^ 64) (hm' : (keyBlock key' ++ msg').length < 2 ^ 64)
    (e : hash p key ln msg = hash p' key' ln' msg') :
    (p = p' ∧ key = key' ∧ ln = ln' ∧ msg = msg') ∨
      Tree.CollideTo p.digestLength.toNat (hashTrace p key ln msg) (hashTrace p' key' ln' msg') := by
  rcases hash_near hk hk' hd hd' hm hm' e with h | c | ⟨x, y, hx, hy, h⟩
  · exact .inl h
  · exact .inr (.inl c)
  · exact .inr (.inr ⟨x, List.mem_of_getLast? hx, y, List.mem_of_getLast? hy, absorbTrace_last_final _ _ _ _ _ hx,
      absorbTrace_last_final _ _ _ _ _ hy, h⟩)

theorem Tree.hash_length_any (p : Params) (hp : p.digestLength.toNat ≤ 32) (key : List Byte) (t : Tree) :
    (t.hash p key).length = p.digestLength.toNat := by
  cases t with
  | leaf o l d => rw [Tree.hash]; unfold Spec.hash; exact digestBytes_length _ _ hp
  | node o dep l cs => rw [Tree.hash]; unfold Spec.hash; exact digestBytes_length _ _ hp

/-- Lists of strings of the same length, not 0, with the same concatenation are the same. -/
theorem flatten_inj {n : Nat} (hn : 1 ≤ n) : ∀ {a b : List (List Byte)}, (∀ x ∈ a, x.length = n) →
    (∀ x ∈ b, x.length = n) → a.flatten = b.flatten → a = b
  | [], [], _, _, _ => rfl
  | [], y :: ys, _, hb, e => by
    have := hb y (by simp)
    have := congrArg List.length e
    simp only [List.flatten_nil, List.flatten_cons, List.length_append, List.length_nil] at this
    omega
  | x :: xs, [], ha, _, e => by
    have := ha x (by simp)
    have := congrArg List.length e
    simp only [List.flatten_nil, List.flatten_cons, List.length_append, List.length_nil] at this
    omega
  | x :: xs, y :: ys, ha, hb, e => by
    simp only [List.flatten_cons] at e
    obtain ⟨e1, e2⟩ := List.append_inj e (by rw [ha x (by simp), hb y (by simp)])
    rw [e1, flatten_inj hn (fun z hz => ha z (by simp [hz])) (fun z hz => hb z (by simp [hz])) e2]

theorem Tree.hashes_mem_any {p : Params} (hp : p.digestLength.toNat ≤ 32) {key : List Byte} {ts : List Tree} :
    ∀ x ∈ Tree.hashes p key ts, x.length = p.digestLength.toNat := by
  induction ts with
  | nil => intro x hx; simp [Tree.hashes] at hx
  | cons t ts ih =>
    intro x hx
    simp only [Tree.hashes, List.mem_cons] at hx
    rcases hx with rfl | hx
    · exact t.hash_length_any p hp key
    · exact ih x hx

variable {p q : Params} {key key' : List Byte}

mutual

theorem Tree.near {n : Nat} (h1 : 1 ≤ n) (hn : n ≤ 32) (hp : p.digestLength.toNat = n) (hq : q.digestLength.toNat = n)
    (hk : key.length = p.keyLength.toNat) (hk' : key'.length = q.keyLength.toNat) (h32 : key.length ≤ 32) (h32' : key'.length ≤ 32) :
    ∀ (t t' : Tree), t.Small → t'.Small → t.Marked → t'.Marked → t.hash p key = t'.hash q key' →
      (t = t' ∧ p.at 0 0 = q.at 0 0 ∧ key = key') ∨ Tree.CollideTo n (t.trace p key) (t'.trace q key')
  | .leaf o l d, .leaf o' l' d', s, s', _, _, e => by
    rw [Tree.hash, Tree.hash] at e
    rw [Tree.Small] at s
    rw [Tree.Small] at s'
    rw [Tree.trace, Tree.trace]
    rcases hash_nearer (p := p.at o 0) (p' := q.at o' 0) hk hk' (Nat.le_trans (Nat.le_of_eq hp) hn) (Nat.le_trans (Nat.le_of_eq hq) hn) (keyed_lt h32 s) (keyed_lt h32' s') e with
      ⟨e1, e2, e3, e4⟩ | c
    · obtain ⟨a, _, b⟩ := Params.at_inj e1
      exact .inl ⟨by rw [a, e3, e4], b, e2⟩
    · exact .inr (hp ▸ c)
  | .leaf o l d, .node o' dep' l' cs', s, s', _, m', e => by
    rw [Tree.hash, Tree.hash] at e
    rw [Tree.Small] at s
    rw [Tree.Small] at s'
    rw [Tree.Marked] at m'
    rw [Tree.trace, Tree.trace]
    have hl := Tree.hashes_flatten_le q (by rw [hq]; exact hn) key' cs'
    rcases hash_nearer (p := p.at o 0) (p' := q.at o' dep') hk hk' (Nat.le_trans (Nat.le_of_eq hp) hn) (Nat.le_trans (Nat.le_of_eq hq) hn) (keyed_lt h32 s)
      (keyed_lt h32' (by omega)) e with ⟨e1, _⟩ | c
    · exact absurd (Params.at_inj e1).2.1.symm m'.1
    · exact .inr ((hp ▸ c : Tree.CollideTo n _ _).mono (fun _ h => h) (fun _ => List.mem_append_right _))
  | .node o dep l cs, .leaf o' l' d', s, s', m, _, e => by
    rw [Tree.hash, Tree.hash] at e
    rw [Tree.Small] at s
    rw [Tree.Small] at s'
    rw [Tree.Marked] at m
    rw [Tree.trace, Tree.trace]
    have hl := Tree.hashes_flatten_le p (by rw [hp]; exact hn) key cs
    rcases hash_nearer (p := p.at o dep) (p' := q.at o' 0) hk hk' (Nat.le_trans (Nat.le_of_eq hp) hn) (Nat.le_trans (Nat.le_of_eq hq) hn) (keyed_lt h32 (by omega))
      (keyed_lt h32' s') e with ⟨e1, _⟩ | c
    · exact absurd (Params.at_inj e1).2.1 m.1
    · exact .inr ((hp ▸ c : Tree.CollideTo n _ _).mono (fun _ => List.mem_append_right _) (fun _ h => h))
  | .node o dep l cs, .node o' dep' l' cs', s, s', m, m', e => by
    rw [Tree.hash, Tree.hash] at e
    rw [Tree.Small] at s
    rw [Tree.Small] at s'
    rw [Tree.Marked] at m
    rw [Tree.Marked] at m'
    rw [Tree.trace, Tree.trace]
    have hl := Tree.hashes_flatten_le p (by rw [hp]; exact hn) key cs
    have hl' := Tree.hashes_flatten_le q (by rw [hq]; exact hn) key' cs'
    rcases hash_nearer (p := p.at o dep) (p' := q.at o' dep') hk hk' (Nat.le_trans (Nat.le_of_eq hp) hn) (Nat.le_trans (Nat.le_of_eq hq) hn) (keyed_lt h32 (by omega))
      (keyed_lt h32' (by omega)) e with ⟨e1, e2, e3, e4⟩ | c
    · obtain ⟨a, b, c⟩ := Params.at_inj e1
      rcases Tree.nears h1 hn hp hq hk hk' h32 h32' cs cs' s.2 s'.2 m.2 m'.2
        (flatten_inj h1 (fun x hx => (Tree.hashes_mem_any (Nat.le_trans (Nat.le_of_eq hp) hn) x hx).trans hp)
          (fun x hx => (Tree.hashes_mem_any (Nat.le_trans (Nat.le_of_eq hq) hn) x hx).trans hq) e4) with e5 | d
      · exact .inl ⟨by rw [a, b, e3, e5], c, e2⟩
      · exact .inr (d.mono (fun _ => List.mem_append_left _) (fun _ => List.mem_append_left _))
    · exact .inr ((hp ▸ c : Tree.CollideTo n _ _).mono (fun _ => List.mem_append_right _) (fun _ => List.mem_append_right _))

theorem Tree.nears {n : Nat} (h1 : 1 ≤ n) (hn : n ≤ 32) (hp : p.digestLength.toNat = n) (hq : q.digestLength.toNat = n)
    (hk : key.length = p.keyLength.toNat) (hk' : key'.length = q.keyLength.toNat) (h32 : key.length ≤ 32) (h32' : key'.length ≤ 32) :
    ∀ (ts ts' : List Tree), Tree.AllSmall ts → Tree.AllSmall ts' → Tree.AllMarked ts → Tree.AllMarked ts' →
      Tree.hashes p key ts = Tree.hashes q key' ts' →
      ts = ts' ∨ Tree.CollideTo n (Tree.traces p key ts) (Tree.traces q key' ts')
  | [], [], _, _, _, _, _ => .inl rfl
  | [], _ :: _, _, _, _, _, e => by simp [Tree.hashes] at e
  | _ :: _, [], _, _, _, _, e => by simp [Tree.hashes] at e
  | t :: ts, t' :: ts', s, s', m, m', e => by
    rw [Tree.AllSmall] at s
    rw [Tree.AllSmall] at s'
    rw [Tree.AllMarked] at m
    rw [Tree.AllMarked] at m'
    rw [Tree.hashes, Tree.hashes] at e
    rw [Tree.traces, Tree.traces]
    obtain ⟨e1, e2⟩ := List.cons.inj e
    rcases Tree.near h1 hn hp hq hk hk' h32 h32' t t' s.1 s'.1 m.1 m'.1 e1 with ⟨a, _⟩ | c
    · rcases Tree.nears h1 hn hp hq hk hk' h32 h32' ts ts' s.2 s'.2 m.2 m'.2 e2 with b | c
      · exact .inl (by rw [a, b])
      · exact .inr ((hp ▸ c : Tree.CollideTo n _ _).mono (fun _ => List.mem_append_right _) (fun _ => List.mem_append_right _))
    · exact .inr ((hp ▸ c : Tree.CollideTo n _ _).mono (fun _ => List.mem_append_left _) (fun _ => List.mem_append_left _))

end

theorem Tree.CollideTo.full {a b : List FInput} (h : Tree.CollideTo 32 a b) : Collide a b := by
  rcases h with c | ⟨x, hx, y, hy, _, _, hne, e⟩
  · exact c
  · exact ⟨x, hx, y, hy, hne, digest32_inj e⟩

end Spec

namespace Blake2s

theorem setAll_append (p : Params) (a b : List Setter) :
    p.setAll (a ++ b) = (p.setAll a >>= fun p => p.setAll b) := by
  induction a generalizing p with
  | nil => rfl
  | cons c cs ih =>
    simp only [List.cons_append, Params.setAll]
    cases p.set c with
    | error e => rfl
    | ok p => exact ih p

/-- The parameters of a node. -/
def Params.placed (p : Params) (offset : BitVec 48) (depth : U8) (last : Bool) : Params :=
  { p with nodeOffset := offset.setWidth 64, nodeDepth := depth, lastNode := last }

theorem setAll_placed (p : Params) (offset : BitVec 48) (depth : U8) (last : Bool) :
    p.setAll [.nodeOffset (offset.setWidth 64), .nodeDepth depth, .lastNode last] = .ok (p.placed offset depth last) := by
  have h : (offset.setWidth 64).toNat < 2 ^ 48 := by
    rw [BitVec.toNat_setWidth, Nat.mod_eq_of_lt (by have := offset.isLt; omega)]
    exact offset.isLt
  simp only [Params.setAll, Params.set, Params.setNodeOffset, assert, h, decide_true]
  rfl

theorem placed_accepted {p : Params} (hp : p.Accepted) (offset : BitVec 48) (depth : U8) (last : Bool) :
    (p.placed offset depth last).Accepted := by
  obtain ⟨calls, h⟩ := hp
  refine ⟨calls ++ [.nodeOffset (offset.setWidth 64), .nodeDepth depth, .lastNode last], ?_⟩
  rw [setAll_append, h]
  exact setAll_placed p offset depth last

theorem placed_values (p : Params) (offset : BitVec 48) (depth : U8) (last : Bool) :
    (p.placed offset depth last).values = p.values.at offset depth := by
  simp only [Params.values, Params.placed, Spec.Params.at, Spec.Params.mk.injEq, true_and, and_true]
  simp

theorem treeNode_ok {E : Env} (hE : E.WF) {p : Params} (hp : p.Accepted) (offset : BitVec 48) (depth : U8) (last : Bool)
    (pieces : List (List U8)) (h : pieces.flatten.length < 2 ^ 63) :
    treeNode E p offset depth last pieces =
      .ok (Spec.hash (p.values.at offset depth) p.keyBytes last pieces.flatten) := by
  have acc := placed_accepted hp offset depth last
  obtain ⟨s, e, _⟩ := withParams_ok E hE _ acc.valid
  have hs : Reaches E (p.placed offset depth last) [] s := ⟨s, [], e, rfl⟩
  obtain ⟨s', e', s'', d, e'', hd⟩ := feed_gives hE acc hs pieces (by
    intro _; simp only [fed, List.nil_append]; split <;> omega)
  unfold treeNode
  rw [setAll_placed]
  have e1 : Params.toState E (p.placed offset depth last) = .ok s := e
  simp only [bind, Except.bind, e1, feed_run, e', Except.map, e'', hd]
  rw [placed_values]
  simp [fed, lastFlag, Params.placed, Params.keyBytes]

mutual

theorem treeRun_ok {E : Env} (hE : E.WF) {p : Params} (hp : p.Accepted) : ∀ t : Spec.Tree, t.Small →
    treeRun E p t = .ok (t.hash p.values p.keyBytes)
  | .leaf o l d, h => by
    rw [Spec.Tree.Small] at h
    rw [treeRun, Spec.Tree.hash, treeNode_ok hE hp _ _ _ _ (by simpa using h)]
    simp
  | .node o dep l cs, h => by
    rw [Spec.Tree.Small] at h
    rw [treeRun, Spec.Tree.hash, treeRuns_ok hE hp cs h.2]
    have := Spec.Tree.hashes_flatten_le p.values hp.valid.hl.2 p.keyBytes cs
    exact treeNode_ok hE hp _ _ _ _ (by omega)

theorem treeRuns_ok {E : Env} (hE : E.WF) {p : Params} (hp : p.Accepted) : ∀ ts : List Spec.Tree, Spec.Tree.AllSmall ts →
    treeRuns E p ts = .ok (Spec.Tree.hashes p.values p.keyBytes ts)
  | [], _ => by rw [treeRuns, Spec.Tree.hashes]; rfl
  | t :: ts, h => by
    rw [Spec.Tree.AllSmall] at h
    rw [treeRuns, Spec.Tree.hashes, treeRun_ok hE hp t h.1, treeRuns_ok hE hp ts h.2]
    rfl

end

end Blake2s
