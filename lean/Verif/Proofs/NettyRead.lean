import Verif.Model.NettyRead
import Verif.Proofs.Netty
/-
Reading from a buffer as Netty implements it, and from what `Buf.lean` sees of it: both go through the same reader indices.
-/
namespace FinProto.Netty

/-- The buffer with another reader index. -/
def NBuf.at (b : NBuf) (k : Nat) : NBuf := { b with rd := k }
/-- What `Buf.lean` sees of it when it reads. -/
def NBuf.rview (b : NBuf) (k : Nat) : RBuf := ⟨b.mem.take b.wr, b.mem.drop b.wr, k⟩

def up {α : Type} : Except JErr α → Except NErr α
  | .ok a => .ok a
  | .error e => .error (.java e)

variable {b : NBuf} (ha : b.alive = true) (hw : b.wr ≤ b.mem.length)

include hw in
theorem rview_length (k : Nat) : (b.rview k).data.length = b.wr := by
  show (b.mem.take b.wr).length = b.wr
  rw [List.length_take]; omega

theorem rview_all (k : Nat) : (b.rview k).data ++ (b.rview k).spare = b.mem := List.take_append_drop _ _

include ha hw in
theorem readNum_both (k : Nat) (e : Endian) (t : PTy) : ∃ k' x, (b.at k).readNum e t = (b.at k', up x) ∧ (b.rview k).readNum e t = (b.rview k', x) := by
  unfold NBuf.readNum RBuf.readNum
  rw [rview_length hw, if_neg (by show ¬ (!b.alive) = true; rw [ha]; decide)]
  by_cases h : k + t.size ≤ b.wr
  · refine ⟨k + t.size, .ok _, ?_, if_pos h⟩
    rw [if_pos (show (b.at k).rd + t.size ≤ (b.at k).wr from h)]
    have e : ((b.mem.take b.wr).drop k).take t.size = (b.mem.drop k).take t.size := by
      rw [List.drop_take, List.take_take, Nat.min_eq_left (by omega)]
    show (b.at (k + t.size), _) = (b.at (k + t.size), up (.ok (Num.ofBytes _ t (((b.mem.take b.wr).drop k).take t.size))))
    rw [e]
    rfl
  · exact ⟨k, .error .indexOutOfBounds, if_neg h, if_neg h⟩

include ha in
theorem readText_both (k : Nat) (len : Nat) : ∃ k' x, (b.at k).readText len = (b.at k', up x) ∧ (b.rview k).readText len = (b.rview k', x) := by
  unfold NBuf.readText RBuf.readText
  rw [rview_all]
  by_cases h0 : len = 0
  · exact ⟨k, .ok [], if_pos h0, if_pos h0⟩
  · rw [if_neg h0, if_neg h0, if_neg (by show ¬ (!b.alive) = true; rw [ha]; decide)]
    by_cases h : k + len ≤ b.mem.length
    · exact ⟨k + len, .ok _, if_pos h, if_pos h⟩
    · exact ⟨k, .error .indexOutOfBounds, if_neg h, if_neg h⟩

include ha in
theorem readFixedString_both (k : Nat) (len : Nat) (pad : JChar) (left : Bool) :
    ∃ k' x, readFixedString (b.at k) len pad left = (b.at k', up x) ∧ FinProto.readFixedString (b.rview k) len pad left = (b.rview k', x) := by
  obtain ⟨k', x, h1, h2⟩ := readText_both ha k len
  unfold readFixedString FinProto.readFixedString
  rw [h1, h2]
  cases x with
  | error e => exact ⟨k', .error e, rfl, rfl⟩
  | ok s => cases left <;> exact ⟨k', .ok _, rfl, rfl⟩

include ha hw in
theorem readDyn_both (k : Nat) (t : PTy) (e : Endian) :
    ∃ k' x, readDyn (b.at k) t e = (b.at k', up x) ∧ FinProto.readDyn (b.rview k) t e = (b.rview k', x) := by
  obtain ⟨k', x, h1, h2⟩ := readNum_both ha hw k e t
  unfold readDyn FinProto.readDyn
  rw [h1, h2]
  cases x with
  | error e => exact ⟨k', .error e, rfl, rfl⟩
  | ok n =>
    dsimp only [up]
    by_cases h : 0 < n.bits.toInt
    · rw [if_pos h, if_pos h]
      obtain ⟨k'', y, h3, h4⟩ := readText_both ha k' n.bits.toNat
      rw [h3, h4]
      cases y with
      | error e => exact ⟨k'', .error e, rfl, rfl⟩
      | ok s => exact ⟨k'', .ok (some s), rfl, rfl⟩
    · rw [if_neg h, if_neg h]
      exact ⟨k', .ok none, rfl, rfl⟩

/-- Two `decode`s that go through the same reader indices. -/
def CallBoth (b : NBuf) (f : NDecCall) (g : DecCall) : Prop := ∀ c fs k, ∃ fs' k' e,
  f c fs (b.at k) = (fs', b.at k', e.map .java) ∧ g c fs (b.rview k) = (fs', b.rview k', e)

include ha hw in
theorem decElem_both {f : NDecCall} {g : DecCall} (hc : CallBoth b f g) (el : DecElem) (k : Nat) :
    ∃ k' x, decElem f el (b.at k) = (b.at k', up x) ∧ FinProto.decElem g el (b.rview k) = (b.rview k', x) := by
  cases el with
  | num t e =>
    obtain ⟨k', x, h1, h2⟩ := readNum_both ha hw k e t
    unfold decElem FinProto.decElem
    dsimp only
    rw [h1, h2]
    cases x with
    | error e => exact ⟨k', .error e, rfl, rfl⟩
    | ok n => exact ⟨k', .ok (some (.num n)), rfl, rfl⟩
  | fixed n pad left =>
    obtain ⟨k', x, h1, h2⟩ := readFixedString_both ha k n pad left
    unfold decElem FinProto.decElem
    dsimp only
    rw [h1, h2]
    cases x with
    | error e => exact ⟨k', .error e, rfl, rfl⟩
    | ok s => exact ⟨k', .ok (some (.str s)), rfl, rfl⟩
  | dyn t e =>
    obtain ⟨k', x, h1, h2⟩ := readDyn_both ha hw k t e
    unfold decElem FinProto.decElem
    dsimp only
    rw [h1, h2]
    cases x with
    | error e => exact ⟨k', .error e, rfl, rfl⟩
    | ok s => exact ⟨k', .ok (s.map .str), rfl, rfl⟩
  | obj c =>
    obtain ⟨fs', k', e, h1, h2⟩ := hc c (freshFields c) k
    unfold decElem FinProto.decElem
    dsimp only
    rw [h1, h2]
    cases e with
    | none => exact ⟨k', .ok (some (.obj c fs')), rfl, rfl⟩
    | some e => exact ⟨k', .error e, rfl, rfl⟩

include ha hw in
theorem decElems_both {f : NDecCall} {g : DecCall} (hc : CallBoth b f g) (el : DecElem) (n : Nat) : ∀ (acc : List Val) (k : Nat),
    ∃ vs k' e, decElems f el n acc (b.at k) = (vs, b.at k', e.map .java) ∧ FinProto.decElems g el n acc (b.rview k) = (vs, b.rview k', e) := by
  induction n with
  | zero => intro acc k; exact ⟨acc, k, none, rfl, rfl⟩
  | succ n ih =>
    intro acc k
    obtain ⟨k', x, h1, h2⟩ := decElem_both ha hw hc el k
    unfold decElems FinProto.decElems
    rw [h1, h2]
    cases x with
    | error e => exact ⟨acc, k', some e, rfl, rfl⟩
    | ok v =>
      cases v with
      | none => exact ih acc k'
      | some v => exact ih (acc ++ [v]) k'

include ha hw in
theorem decStmt_both (w : World) {f : NDecCall} {g : DecCall} (hc : CallBoth b f g) (tys : List FTy) (s : DecStmt) (fs : List Val) (k : Nat) :
    ∃ fs' k' e, decStmt w f tys s ⟨fs, b.at k⟩ = (⟨fs', b.at k'⟩, e.map .java) ∧ FinProto.decStmt w g tys s ⟨fs, b.rview k⟩ = (⟨fs', b.rview k'⟩, e) := by
  cases s with
  | num fi t e =>
    obtain ⟨k', x, h1, h2⟩ := readNum_both ha hw k e t
    unfold decStmt FinProto.decStmt
    dsimp only
    rw [h1, h2]
    cases x with
    | error e => exact ⟨fs, k', some e, rfl, rfl⟩
    | ok n =>
      dsimp only [up]
      rcases tys[fi]?.bind (assignNum · n) with _ | v
      · exact ⟨fs, k', some .illTyped, rfl, rfl⟩
      · exact ⟨_, k', none, rfl, rfl⟩
  | fixed fi n pad left =>
    obtain ⟨k', x, h1, h2⟩ := readFixedString_both ha k n pad left
    unfold decStmt FinProto.decStmt
    dsimp only
    rw [h1, h2]
    cases x with
    | error e => exact ⟨fs, k', some e, rfl, rfl⟩
    | ok s => exact ⟨_, k', none, rfl, rfl⟩
  | dyn fi t e =>
    obtain ⟨k', x, h1, h2⟩ := readDyn_both ha hw k t e
    unfold decStmt FinProto.decStmt
    dsimp only
    rw [h1, h2]
    cases x with
    | error e => exact ⟨fs, k', some e, rfl, rfl⟩
    | ok s =>
      cases s with
      | none => exact ⟨fs, k', none, rfl, rfl⟩
      | some s => exact ⟨_, k', none, rfl, rfl⟩
  | list fi t e el =>
    obtain ⟨k', x, h1, h2⟩ := readNum_both ha hw k e t
    unfold decStmt FinProto.decStmt
    dsimp only
    rw [h1, h2]
    cases x with
    | error e => exact ⟨fs, k', some e, rfl, rfl⟩
    | ok n =>
      dsimp only [up]
      by_cases h : 0 < n.bits.toInt
      · rw [if_pos h, if_pos h]
        obtain ⟨vs, k'', e', h3, h4⟩ := decElems_both ha hw hc el n.bits.toNat [] k'
        rw [h3, h4]
        exact ⟨_, k'', e', rfl, rfl⟩
      · rw [if_neg h, if_neg h]
        exact ⟨fs, k', none, rfl, rfl⟩
  | obj fi c =>
    unfold decStmt FinProto.decStmt
    dsimp only
    rcases fs[fi]? with _ | v
    · exact ⟨fs, k, some .illTyped, rfl, rfl⟩
    · cases v with
      | null =>
        obtain ⟨fs', k', e, h1, h2⟩ := hc c (freshFields c) k
        dsimp only
        rw [h1, h2]
        exact ⟨_, k', e, rfl, rfl⟩
      | obj c' fs' =>
        obtain ⟨fs'', k', e, h1, h2⟩ := hc c' fs' k
        dsimp only
        rw [h1, h2]
        exact ⟨_, k', e, rfl, rfl⟩
      | _ => exact ⟨fs, k, some .illTyped, rfl, rfl⟩
  | create fi fac key =>
    unfold decStmt FinProto.decStmt
    dsimp only
    rcases fs[key]? with _ | v
    · exact ⟨fs, k, some .illTyped, rfl, rfl⟩
    · dsimp only
      rcases w.fac fac (keyOf v) with _ | x
      · exact ⟨fs, k, some .illegalArgument, rfl, rfl⟩
      · exact ⟨_, k, none, rfl, rfl⟩
  | call fi =>
    unfold decStmt FinProto.decStmt
    dsimp only
    rcases fs[fi]? with _ | v
    · exact ⟨fs, k, some .illTyped, rfl, rfl⟩
    · cases v with
      | null => exact ⟨fs, k, some .nullPointer, rfl, rfl⟩
      | obj c' fs' =>
        obtain ⟨fs'', k', e, h1, h2⟩ := hc c' fs' k
        dsimp only
        rw [h1, h2]
        exact ⟨_, k', e, rfl, rfl⟩
      | _ => exact ⟨fs, k, some .illTyped, rfl, rfl⟩

include ha hw in
theorem decStmts_both (w : World) {f : NDecCall} {g : DecCall} (hc : CallBoth b f g) (tys : List FTy) (ss : List DecStmt) : ∀ (fs : List Val) (k : Nat),
    ∃ fs' k' e, decStmts w f tys ss ⟨fs, b.at k⟩ = (⟨fs', b.at k'⟩, e.map .java) ∧ FinProto.decStmts w g tys ss ⟨fs, b.rview k⟩ = (⟨fs', b.rview k'⟩, e) := by
  induction ss with
  | nil => intro fs k; exact ⟨fs, k, none, rfl, rfl⟩
  | cons s ss ih =>
    intro fs k
    obtain ⟨fs', k', e, h1, h2⟩ := decStmt_both ha hw w hc tys s fs k
    unfold decStmts FinProto.decStmts
    rw [h1, h2]
    cases e with
    | none => exact ih fs' k'
    | some e => exact ⟨fs', k', some e, rfl, rfl⟩

include ha hw in
theorem decode_both (w : World) (n : Nat) : CallBoth b (decode w n) (FinProto.decode w n) := by
  induction n with
  | zero => intro c fs k; exact ⟨fs, k, some .stackOverflow, rfl, rfl⟩
  | succ n ih =>
    intro c fs k
    obtain ⟨fs', k', e, h1, h2⟩ := decStmts_both ha hw w ih ((decl c).fields.map (·.2)) (decl c).dec fs k
    unfold decode FinProto.decode
    rw [h1, h2]
    exact ⟨fs', k', e, rfl, rfl⟩

/-! ### Released buffers -/

theorem readNum_dead {b : NBuf} (h : b.alive = false) (e : Endian) (t : PTy) : b.readNum e t = (b, .error .released) := by
  unfold NBuf.readNum
  rw [h]; rfl

theorem readText_dead {b : NBuf} (h : b.alive = false) (n : Nat) : (b.readText n).1 = b ∧ (0 < n → b.readText n = (b, .error .released)) := by
  unfold NBuf.readText
  rw [h]
  by_cases h0 : n = 0
  · rw [if_pos h0]; exact ⟨rfl, fun h => absurd h (by omega)⟩
  · rw [if_neg h0]; exact ⟨rfl, fun _ => rfl⟩

theorem readFixedString_dead {b : NBuf} (h : b.alive = false) (n : Nat) (pad : JChar) (left : Bool) :
    (readFixedString b n pad left).1 = b ∧ (0 < n → readFixedString b n pad left = (b, .error .released)) := by
  obtain ⟨h1, h2⟩ := readText_dead h n
  unfold readFixedString
  refine ⟨?_, fun hn => by rw [h2 hn]⟩
  rcases hr : b.readText n with ⟨b', r⟩
  rw [hr] at h1
  cases h1
  cases r with
  | error e => rfl
  | ok s => cases left <;> rfl

theorem readDyn_dead {b : NBuf} (h : b.alive = false) (t : PTy) (e : Endian) : readDyn b t e = (b, .error .released) := by
  unfold readDyn
  rw [readNum_dead h]

def DeadDec (b : NBuf) (f : NDecCall) : Prop := ∀ c fs, (f c fs b).2.1 = b

theorem decElem_dead {b : NBuf} (h : b.alive = false) {f : NDecCall} (hf : DeadDec b f) (el : DecElem) : (decElem f el b).1 = b := by
  unfold decElem
  cases el with
  | num t e => dsimp only; rw [readNum_dead h]
  | fixed n pad left =>
    dsimp only
    have := (readFixedString_dead h n pad left).1
    rcases hr : readFixedString b n pad left with ⟨b', r⟩
    rw [hr] at this
    cases this
    cases r <;> rfl
  | dyn t e => dsimp only; rw [readDyn_dead h]
  | obj c =>
    dsimp only
    have := hf c (freshFields c)
    rcases hr : f c (freshFields c) b with ⟨fs, b', r⟩
    rw [hr] at this
    cases this
    cases r <;> rfl

theorem decElems_dead {b : NBuf} (h : b.alive = false) {f : NDecCall} (hf : DeadDec b f) (el : DecElem) (n : Nat) : ∀ acc, (decElems f el n acc b).2.1 = b := by
  induction n with
  | zero => intro acc; rfl
  | succ n ih =>
    intro acc
    unfold decElems
    have := decElem_dead h hf el
    rcases hr : decElem f el b with ⟨b', r⟩
    rw [hr] at this
    cases this
    cases r with
    | error e => rfl
    | ok v =>
      cases v with
      | none => exact ih acc
      | some v => exact ih _

theorem decStmt_dead {b : NBuf} (h : b.alive = false) (w : World) {f : NDecCall} (hf : DeadDec b f) (tys : List FTy) (s : DecStmt) (fs : List Val) :
    (decStmt w f tys s ⟨fs, b⟩).1.buf = b := by
  unfold decStmt
  cases s with
  | num i t e => dsimp only; rw [readNum_dead h]
  | fixed i n pad left =>
    dsimp only
    have := (readFixedString_dead h n pad left).1
    rcases hr : readFixedString b n pad left with ⟨b', r⟩
    rw [hr] at this
    cases this
    cases r <;> rfl
  | dyn i t e => dsimp only; rw [readDyn_dead h]
  | list i t e el => dsimp only; rw [readNum_dead h]
  | obj i c =>
    dsimp only
    rcases fs[i]? with _ | v
    · rfl
    · cases v with
      | null => exact hf _ _
      | obj c' fs' => exact hf _ _
      | _ => rfl
  | create i fac key =>
    dsimp only
    rcases fs[key]? with _ | v
    · rfl
    · dsimp only
      rcases w.fac fac (keyOf v) with _ | x <;> rfl
  | call i =>
    dsimp only
    rcases fs[i]? with _ | v
    · rfl
    · cases v with
      | obj c' fs' => exact hf _ _
      | _ => rfl

theorem decStmts_dead {b : NBuf} (h : b.alive = false) (w : World) {f : NDecCall} (hf : DeadDec b f) (tys : List FTy) (ss : List DecStmt) : ∀ fs,
    (decStmts w f tys ss ⟨fs, b⟩).1.buf = b := by
  induction ss with
  | nil => intro fs; rfl
  | cons s ss ih =>
    intro fs
    unfold decStmts
    have := decStmt_dead h w hf tys s fs
    rcases hr : decStmt w f tys s ⟨fs, b⟩ with ⟨⟨fs', b'⟩, r⟩
    rw [hr] at this
    cases this
    cases r with
    | none => exact ih fs'
    | some e => rfl

theorem decode_dead {b : NBuf} (h : b.alive = false) (w : World) (n : Nat) : DeadDec b (decode w n) := by
  induction n with
  | zero => intro c fs; rfl
  | succ n ih =>
    intro c fs
    exact decStmts_dead h w ih _ _ fs

/-- The first statement reads from the buffer. -/
def readsFirst : List DecStmt → Bool
  | .num _ _ _ :: _ | .dyn _ _ _ :: _ | .list _ _ _ _ :: _ => true
  | .fixed _ n _ _ :: _ => decide (0 < n)
  | _ => false

theorem decStmts_released {b : NBuf} (h : b.alive = false) (w : World) (f : NDecCall) (tys : List FTy) (ss : List DecStmt) (hs : readsFirst ss = true) (fs : List Val) :
    decStmts w f tys ss ⟨fs, b⟩ = (⟨fs, b⟩, some .released) := by
  cases ss with
  | nil => cases hs
  | cons s ss =>
    unfold decStmts decStmt
    cases s with
    | num i t e => dsimp only; rw [readNum_dead h]
    | fixed i n pad left => dsimp only; rw [(readFixedString_dead h n pad left).2 (by simpa [readsFirst] using hs)]
    | dyn i t e => dsimp only; rw [readDyn_dead h]
    | list i t e el => dsimp only; rw [readNum_dead h]
    | _ => cases hs

theorem readsFirst_decl (c : Cls) : (decl c).dec = [] ∨ c = .sample_NestedPacket ∨ readsFirst (decl c).dec = true := by
  cases c <;> first | exact .inl rfl | exact .inr (.inr rfl) | exact .inr (.inl rfl)

end FinProto.Netty
