import Verif.Model.VectorTests
import Verif.Props.Tests
import Verif.Props.Collision
/-!
# The tests of tests/vector_tests.rs
-/

namespace Blake2s.Tests

theorem fromHexDigit_hexDigit : ∀ n : Fin 16, fromHexDigit (hexDigit n.val) = some (BitVec.ofNat 8 n.val) := by
  decide

/-- Decoding undoes encoding. -/
theorem hexDecode_hexOf (b : List U8) : hexDecode (hexOf b) = some b := by
  induction b with
  | nil => rfl
  | cons x xs ih =>
    have hx : x.toNat < 256 := x.isLt
    have e : hexOf (x :: xs) = hexDigit (x.toNat / 16) :: hexDigit (x.toNat % 16) :: hexOf xs := rfl
    rw [e, hexDecode, fromHexDigit_hexDigit ⟨x.toNat / 16, by omega⟩,
      fromHexDigit_hexDigit ⟨x.toNat % 16, by omega⟩, ih]
    simp only []
    congr 2
    clear e hx
    revert x
    decide

theorem fromHexDigit_ascii : ∀ k : Fin 128, ∀ n : Fin 16,
    fromHexDigit (Char.ofNat k.val) = some (BitVec.ofNat 8 n.val) ↔
      (Char.ofNat k.val).toLower = hexDigit n.val := by
  decide +kernel
theorem hexDigit_small : ∀ n : Fin 16, (hexDigit n.val).toNat < 128 := by decide
theorem fromHexDigit_range : ∀ k : Fin 128, ∀ x, fromHexDigit (Char.ofNat k.val) = some x → x.toNat < 16 := by
  intro k x h
  have : ∀ k : Fin 128, ((fromHexDigit (Char.ofNat k.val)).getD 0).toNat < 16 := by
    decide +kernel
  have := this k
  rw [h] at this
  exact this

theorem fromHexDigit_big {c : Char} (h : 128 ≤ c.toNat) : fromHexDigit c = none ∧ c.toLower = c := by
  have le : ∀ d : Char, d.toNat < 128 → ¬ c ≤ d := by
    intro d hd hc
    have : c.toNat ≤ d.toNat := hc
    omega
  constructor
  · unfold fromHexDigit
    rw [if_neg (fun q => le '9' (by decide) q.2), if_neg (fun q => le 'f' (by decide) q.2),
      if_neg (fun q => le 'F' (by decide) q.2)]
  · unfold Char.toLower
    rw [dif_neg]
    rintro ⟨_, q⟩
    exact le 'Z' (by decide) q

theorem fromHexDigit_iff (c : Char) (x : U8) :
    fromHexDigit c = some x ↔ x.toNat < 16 ∧ c.toLower = hexDigit x.toNat := by
  by_cases h : c.toNat < 128
  · have e : Char.ofNat c.toNat = c := Char.ofNat_toNat c
    constructor
    · intro q
      have r := fromHexDigit_range ⟨c.toNat, h⟩ x (by simp only [e]; exact q)
      refine ⟨r, ?_⟩
      have := (fromHexDigit_ascii ⟨c.toNat, h⟩ ⟨x.toNat, r⟩).mp (by
        simp only [e, BitVec.ofNat_toNat, BitVec.setWidth_eq]; exact q)
      simpa only [e] using this
    · rintro ⟨r, q⟩
      have := (fromHexDigit_ascii ⟨c.toNat, h⟩ ⟨x.toNat, r⟩).mpr (by simp only [e]; exact q)
      simpa only [e, BitVec.ofNat_toNat, BitVec.setWidth_eq] using this
  · obtain ⟨h1, h2⟩ := fromHexDigit_big (by omega : 128 ≤ c.toNat)
    rw [h1, h2]
    constructor
    · nofun
    · rintro ⟨r, q⟩
      have := hexDigit_small ⟨x.toNat, r⟩
      simp only at this
      rw [← q] at this
      omega

theorem nibbles : ∀ x y : Fin 16, ((BitVec.ofNat 8 x.val <<< 4 ||| BitVec.ofNat 8 y.val : U8).toNat / 16 = x.val ∧
    (BitVec.ofNat 8 x.val <<< 4 ||| BitVec.ofNat 8 y.val : U8).toNat % 16 = y.val) := by
  decide +kernel

theorem nibbles_join : ∀ z : U8, BitVec.ofNat 8 (z.toNat / 16) <<< 4 ||| BitVec.ofNat 8 (z.toNat % 16) = z := by
  decide +kernel

/-- `hex::decode` reads hexadecimal of either case. -/
theorem hexDecode_iff : ∀ (t : List Char) (b : List U8), hexDecode t = some b ↔ t.map Char.toLower = hexOf b
  | [], b => by cases b <;> simp [hexDecode, hexOf]
  | [c], b => by cases b <;> simp [hexDecode, hexOf]
  | a :: c :: rest, b => by
    have ih := hexDecode_iff rest
    rw [hexDecode]
    constructor
    · intro h
      split at h
      · rename_i x y l q1 q2 q3
        cases h
        obtain ⟨x16, qa⟩ := (fromHexDigit_iff a x).mp q1
        obtain ⟨y16, qc⟩ := (fromHexDigit_iff c y).mp q2
        have n := nibbles ⟨x.toNat, x16⟩ ⟨y.toNat, y16⟩
        simp only [BitVec.ofNat_toNat, BitVec.setWidth_eq] at n
        have e : hexOf ((x <<< 4 ||| y) :: l) = hexDigit ((x <<< 4 ||| y).toNat / 16) ::
          hexDigit ((x <<< 4 ||| y).toNat % 16) :: hexOf l := rfl
        rw [e, n.1, n.2, ← (ih l).mp q3, ← qa, ← qc]
        rfl
      · cases h
    · intro h
      cases b with
      | nil => cases h
      | cons z l =>
        have hz : z.toNat < 256 := z.isLt
        have e : a.toLower :: c.toLower :: rest.map Char.toLower =
          hexDigit (z.toNat / 16) :: hexDigit (z.toNat % 16) :: hexOf l := h
        have f : ∀ k, k < 16 → (BitVec.ofNat 8 k).toNat = k := fun k hk => by
          rw [BitVec.toNat_ofNat]; omega
        have qa := (fromHexDigit_iff a (BitVec.ofNat 8 (z.toNat / 16))).mpr (by
          rw [f _ (by omega)]; exact ⟨by omega, (List.cons.inj e).1⟩)
        have qc := (fromHexDigit_iff c (BitVec.ofNat 8 (z.toNat % 16))).mpr (by
          rw [f _ (by omega)]; exact ⟨by omega, (List.cons.inj (List.cons.inj e).2).1⟩)
        rw [qa, qc, (ih l).mpr (List.cons.inj (List.cons.inj e).2).2]
        simp only []
        rw [nibbles_join]
theorem hexDecode_length (t : List Char) (b : List U8) (h : hexDecode t = some b) :
    t.length = 2 * b.length := by
  induction t using hexDecode.induct generalizing b with
  | case1 => cases h; rfl
  | case2 c => cases h
  | case3 a c rest x y l q1 q2 q3 ih =>
    rw [hexDecode, q1, q2, q3] at h
    cases h
    have := ih _ ‹_›
    simp only [List.length_cons]
    omega
  | case4 a c rest hn ih =>
    rw [hexDecode] at h
    split at h
    · exact absurd ‹_› (hn _ _ _ ‹_› ‹_›)
    · cases h

theorem ok_bind {α β : Type} (a : α) (f : α → R β) : (Except.ok a >>= f) = f a := rfl

theorem assertHex_iff {h : Hash} {b : List U8} (hb : h.asBytes = .ok b) (x : List Char) :
    assertHex h x = .ok () ↔ x = hexOf b := by
  constructor
  · intro e
    unfold assertHex at e
    rw [toHex_ok hb, ok_bind] at e
    unfold assert at e
    split at e
    · rename_i q
      exact (eq_of_beq q).symm
    · cases e
  · rintro rfl
    exact assertHex_ok hb

theorem unwrap_ok {α : Type} {o : Option α} {a : α} (h : o = some a) : unwrap o = .ok a := by rw [h]; rfl

theorem unwrap_bind {α β : Type} {o : Option α} {f : α → R β} {b : β} (h : (unwrap o >>= f) = .ok b) :
    ∃ a, o = some a ∧ f a = .ok b := by
  cases o with
  | none => cases h
  | some a => exact ⟨a, rfl, h⟩

theorem bind_ok {α β : Type} {m : R α} {f : α → R β} {b : β} (h : (m >>= f) = .ok b) :
    ∃ a, m = .ok a ∧ f a = .ok b := by
  cases m with
  | error e => cases h
  | ok a => exact ⟨a, rfl, h⟩

theorem caseLoop_iff (E : Env) (name : List Char) (body : TestCase → R Unit) (cases : List TestCase)
    (count : U64) (h : count.toNat + cases.length < 2 ^ 64) (n : U64) :
    caseLoop E name body count cases = .ok n ↔
      (∀ c ∈ cases, c.hash = name → body c = .ok ()) ∧
        n.toNat = count.toNat + (cases.filter fun c => c.hash == name).length := by
  induction cases generalizing count with
  | nil =>
    constructor
    · intro e
      cases e
      exact ⟨nofun, rfl⟩
    · intro ⟨_, e⟩
      rw [BitVec.eq_of_toNat_eq e]
      rfl
  | cons c rest ih =>
    rw [List.length_cons] at h
    unfold caseLoop
    by_cases q : c.hash = name
    · rw [if_pos (beq_iff_eq.mpr q), List.filter_cons_of_pos (by exact beq_iff_eq.mpr q)]
      have ha : addChk E count 1 = .ok (count + 1) := by
        unfold addChk
        rw [if_neg]
        · rfl
        · rw [Bool.and_eq_true, decide_eq_true_eq]
          rintro ⟨_, h'⟩
          have : (1 : U64).toNat = 1 := rfl
          omega
      have hc : (count + 1 : U64).toNat = count.toNat + 1 := by
        rw [BitVec.toNat_add, Nat.mod_eq_of_lt]
        · rfl
        · have : (1 : U64).toNat = 1 := rfl
          omega
      have ih' := ih (count + 1) (by omega)
      rw [hc] at ih'
      cases hb : body c with
      | error f =>
        constructor
        · intro e; cases e
        · intro ⟨e, _⟩
          have := e c (List.mem_cons_self ..) q
          rw [hb] at this
          cases this
      | ok u =>
        rw [ok_bind, ha, ok_bind, ih', List.length_cons]
        constructor
        · intro ⟨e, e'⟩
          refine ⟨?_, by omega⟩
          intro d hd hq
          rcases List.mem_cons.mp hd with rfl | hd
          · exact hb
          · exact e d hd hq
        · intro ⟨e, e'⟩
          exact ⟨fun d hd hq => e d (List.mem_cons_of_mem _ hd) hq, by omega⟩
    · rw [if_neg (by rw [beq_iff_eq]; exact q), List.filter_cons_of_neg (by rw [beq_iff_eq]; exact q),
        ih count (by omega)]
      constructor
      · intro ⟨e, e'⟩
        refine ⟨?_, e'⟩
        intro d hd hq
        rcases List.mem_cons.mp hd with rfl | hd
        · exact absurd hq q
        · exact e d hd hq
      · intro ⟨e, e'⟩
        exact ⟨fun d hd hq => e d (List.mem_cons_of_mem _ hd) hq, e'⟩

theorem loop_iff (E : Env) (name : List Char) (body : TestCase → R Unit) (cases : List TestCase)
    (h : cases.length < 2 ^ 64) :
    ((caseLoop E name body 0 cases >>= fun count => assert (512 == count)) = .ok ()) ↔
      (∀ c ∈ cases, c.hash = name → body c = .ok ()) ∧
        (cases.filter fun c => c.hash == name).length = 512 := by
  have hz : (0 : U64).toNat = 0 := rfl
  have hi := caseLoop_iff E name body cases 0 (by omega)
  rw [hz] at hi
  constructor
  · intro e
    obtain ⟨n, e1, e2⟩ := bind_ok e
    obtain ⟨h1, h2⟩ := (hi n).mp e1
    refine ⟨h1, ?_⟩
    unfold assert at e2
    split at e2
    · rename_i q
      have := eq_of_beq q
      subst this
      have : (512 : U64).toNat = 512 := rfl
      omega
    · cases e2
  · intro ⟨h1, h2⟩
    have : caseLoop E name body 0 cases = .ok 512 := (hi 512).mpr ⟨h1, by
      have : (512 : U64).toNat = 512 := rfl
      omega⟩
    rw [this]
    rfl

/-- The keyed hash of a test case. -/
theorem keyed_case (E : Env) (hE : E.WF) (key input : List U8) (hk : key.length ≤ 32)
    (h : E.overflowChecks = true → 64 + input.length < 2 ^ 64) :
    ∃ p d, Params.new.setKey key = .ok p ∧ hashOne E p input = .ok d ∧
      d.asBytes = .ok (Spec.hash (Spec.sequential 32 (BitVec.ofNat 8 key.length)) key false input) := by
  obtain ⟨p, e, hv⟩ := setAll_view [.key key] (fun c hc => by
    rw [List.mem_singleton] at hc
    subst hc
    exact hk) Params.new
  have hp : p.Accepted := ⟨_, e⟩
  have hkb : p.keyBytes = key := congrArg View.key hv
  have hval : p.values = Spec.sequential 32 (BitVec.ofNat 8 key.length) := congrArg View.values hv
  have hln : p.lastNode = false := congrArg View.lastNode hv
  have e' : Params.new.setKey key = .ok p := by
    cases q : Params.new.setKey key with
    | error f =>
      have : Params.new.setAll [.key key] = .error f := by
        show (Params.new.setKey key >>= _) = _
        rw [q]
        rfl
      rw [this] at e
      cases e
    | ok r =>
      have : Params.new.setAll [.key key] = .ok r := by
        show (Params.new.setKey key >>= _) = _
        rw [q]
        rfl
      rw [this] at e
      exact e
  obtain ⟨d, e1, hd⟩ := C02_params E hE p hp input (fun ho => by
    have := h ho
    split <;> omega)
  refine ⟨p, d, e', e1, ?_⟩
  rw [hd, hkb, hval, hln]

theorem key_too_long (key : List U8) (hk : ¬ key.length ≤ 32) :
    Params.new.setKey key = .error .assertFailed ∧ Sp.Params.new.setKey key = .error .assertFailed := by
  constructor
  · unfold Params.setKey
    rw [show decide (key.length ≤ KEYBYTES) = false from decide_eq_false hk]
    rfl
  · unfold Sp.Params.setKey
    rw [show decide (key.length ≤ KEYBYTES) = false from decide_eq_false hk]
    rfl

end Blake2s.Tests
