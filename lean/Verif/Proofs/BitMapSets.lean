import Verif.Proofs.BitMap
/- Point-wise behaviour of get/set/clear at in-range positions (for C17, C18). -/
namespace FinProto

theorem posMod {n p : Nat} (hn : n ≤ 64) (hp : p < n) (m : Nat) (hm : n ≤ m) : (BitVec.ofNat 32 p).toNat % m = p := by
  rw [BitVec.toNat_ofNat, Nat.mod_eq_of_lt (by omega : p < 2 ^ 32)]
  exact Nat.mod_eq_of_lt (by omega)

theorem ByteBitMap.get_set (s : BitVec 8) (p q : Nat) (hp : p < 8) (hq : q < 8) :
    ByteBitMap.get (ByteBitMap.set s (BitVec.ofNat 32 p)) (BitVec.ofNat 32 q)
      = if p = q then true else ByteBitMap.get s (BitVec.ofNat 32 q) := by
  rw [ByteBitMap.get_eq, ByteBitMap.get_eq, posMod (by decide) hq 32 (by decide), if_pos hq,
    ByteBitMap.set_getLsbD _ _ _ (by omega), posMod (by decide) hp 32 (by decide)]
  by_cases h : p = q
  · simp [h]; omega
  · simp [h]; omega

theorem ByteBitMap.get_clear (s : BitVec 8) (p q : Nat) (hp : p < 8) (hq : q < 8) :
    ByteBitMap.get (ByteBitMap.clear s (BitVec.ofNat 32 p)) (BitVec.ofNat 32 q)
      = if p = q then false else ByteBitMap.get s (BitVec.ofNat 32 q) := by
  rw [ByteBitMap.get_eq, ByteBitMap.get_eq, posMod (by decide) hq 32 (by decide), if_pos hq,
    ByteBitMap.clear_getLsbD _ _ _ (by omega), posMod (by decide) hp 32 (by decide)]
  by_cases h : p = q
  · simp [h]; omega
  · simp [h]; omega

theorem ShortBitMap.get_set (s : BitVec 16) (p q : Nat) (hp : p < 16) (hq : q < 16) :
    ShortBitMap.get (ShortBitMap.set s (BitVec.ofNat 32 p)) (BitVec.ofNat 32 q)
      = if p = q then true else ShortBitMap.get s (BitVec.ofNat 32 q) := by
  rw [ShortBitMap.get_eq, ShortBitMap.get_eq, posMod (by decide) hq 32 (by decide), if_pos hq,
    ShortBitMap.set_getLsbD _ _ _ (by omega), posMod (by decide) hp 32 (by decide)]
  by_cases h : p = q
  · simp [h]; omega
  · simp [h]; omega

theorem ShortBitMap.get_clear (s : BitVec 16) (p q : Nat) (hp : p < 16) (hq : q < 16) :
    ShortBitMap.get (ShortBitMap.clear s (BitVec.ofNat 32 p)) (BitVec.ofNat 32 q)
      = if p = q then false else ShortBitMap.get s (BitVec.ofNat 32 q) := by
  rw [ShortBitMap.get_eq, ShortBitMap.get_eq, posMod (by decide) hq 32 (by decide), if_pos hq,
    ShortBitMap.clear_getLsbD _ _ _ (by omega), posMod (by decide) hp 32 (by decide)]
  by_cases h : p = q
  · simp [h]; omega
  · simp [h]; omega

theorem IntBitMap.get_set (s : BitVec 32) (p q : Nat) (hp : p < 32) (hq : q < 32) :
    IntBitMap.get (IntBitMap.set s (BitVec.ofNat 32 p)) (BitVec.ofNat 32 q)
      = if p = q then true else IntBitMap.get s (BitVec.ofNat 32 q) := by
  rw [IntBitMap.get_eq, IntBitMap.get_eq, posMod (by decide) hq 32 (by decide),
    IntBitMap.set_getLsbD _ _ _ (by omega), posMod (by decide) hp 32 (by decide)]
  by_cases h : p = q
  · simp [h]; omega
  · simp [h]; omega

/-- What the code does instead of clearing. -/
theorem IntBitMap.clear_eq_set (s : BitVec 32) (pos : BitVec 32) : IntBitMap.clear s pos = IntBitMap.set s pos := rfl

theorem IntBitMap.runBm_eq (s : BitVec 32) (history : List BmCall) (hin : ∀ c ∈ history, c.pos < 32) (p : Nat) (hp : p < 32) :
    IntBitMap.get (runBm IntBitMap.set IntBitMap.clear s history) (BitVec.ofNat 32 p)
      = (IntBitMap.get s (BitVec.ofNat 32 p) || history.any (·.pos == p)) := by
  induction history using snoc_induction with
  | nil => simp [runBm]
  | snoc h c ih =>
    have ih := ih (fun c' hc' => hin c' (by simp [hc']))
    have hc := hin c (by simp)
    rw [runBm, List.foldl_append, List.foldl_cons, List.foldl_nil]
    rw [runBm] at ih
    have key : ∀ q, q < 32 → ∀ s' : BitVec 32, IntBitMap.get (IntBitMap.set s' (BitVec.ofNat 32 q)) (BitVec.ofNat 32 p)
        = (IntBitMap.get s' (BitVec.ofNat 32 p) || q == p) := by
      intro q hq s'
      rw [IntBitMap.get_set _ _ _ hq hp]
      by_cases h : q = p <;> simp [h]
    cases c with
    | set q =>
      simp only [BmCall.pos] at hc
      dsimp only
      rw [key q hc, ih]
      simp [BmCall.pos, Bool.or_assoc]
    | clear q =>
      simp only [BmCall.pos] at hc
      dsimp only
      rw [IntBitMap.clear_eq_set, key q hc, ih]
      simp [BmCall.pos, Bool.or_assoc]

theorem LongBitMap.get_set (s : BitVec 64) (p q : Nat) (hp : p < 64) (hq : q < 64) :
    LongBitMap.get (LongBitMap.set s (BitVec.ofNat 32 p)) (BitVec.ofNat 32 q)
      = if p = q then true else LongBitMap.get s (BitVec.ofNat 32 q) := by
  rw [LongBitMap.get_eq, LongBitMap.get_eq, posMod (by decide) hq 64 (by decide),
    LongBitMap.set_getLsbD _ _ _ (by omega), posMod (by decide) hp 64 (by decide)]
  by_cases h : p = q
  · simp [h]; omega
  · simp [h]; omega

/-- What the code does instead of clearing. -/
theorem LongBitMap.clear_eq_set (s : BitVec 64) (pos : BitVec 32) : LongBitMap.clear s pos = LongBitMap.set s pos := rfl

theorem LongBitMap.runBm_eq (s : BitVec 64) (history : List BmCall) (hin : ∀ c ∈ history, c.pos < 64) (p : Nat) (hp : p < 64) :
    LongBitMap.get (runBm LongBitMap.set LongBitMap.clear s history) (BitVec.ofNat 32 p)
      = (LongBitMap.get s (BitVec.ofNat 32 p) || history.any (·.pos == p)) := by
  induction history using snoc_induction with
  | nil => simp [runBm]
  | snoc h c ih =>
    have ih := ih (fun c' hc' => hin c' (by simp [hc']))
    have hc := hin c (by simp)
    rw [runBm, List.foldl_append, List.foldl_cons, List.foldl_nil]
    rw [runBm] at ih
    have key : ∀ q, q < 64 → ∀ s' : BitVec 64, LongBitMap.get (LongBitMap.set s' (BitVec.ofNat 32 q)) (BitVec.ofNat 32 p)
        = (LongBitMap.get s' (BitVec.ofNat 32 p) || q == p) := by
      intro q hq s'
      rw [LongBitMap.get_set _ _ _ hq hp]
      by_cases h : q = p <;> simp [h]
    cases c with
    | set q =>
      simp only [BmCall.pos] at hc
      dsimp only
      rw [key q hc, ih]
      simp [BmCall.pos, Bool.or_assoc]
    | clear q =>
      simp only [BmCall.pos] at hc
      dsimp only
      rw [LongBitMap.clear_eq_set, key q hc, ih]
      simp [BmCall.pos, Bool.or_assoc]

end FinProto
