import Verif.Proofs.RacingDecode
import Verif.Model.Factory
import Verif.Model.Checksum
/-
C108: other threads call the setters of a message while bytes are being decoded into it.
-/
namespace FinProto

/-- **C108.** While a thread decodes bytes into a message, other threads call setters of it, whenever and as often as they like, but not of the fields
`decode` reads again (lists, parts, and what selects the class of a part).  The message and the bytes alone fix how often `decode` accesses the fields and
at which moment it assigns which of them; it assigns them in the order of the layout, and leaves the fields without a moment (0) as they are.  Whatever
the others do, the call reads and throws exactly what it would alone.  A field then holds the value that was set last after its moment, and if nobody set it
after its moment, what `decode` alone leaves there: no setter called later than that is lost, none called before has an effect. -/
theorem C108_outcome (w : World) (n : Nat) (c : Cls) (fs : List Val) (b : RBuf) (hl : fs.length = (layout c).length) :
    let alone := decode w (n + 1) c fs b
    ∃ (moment : Nat → Nat) (accesses : Nat),
      (∀ f, moment f ≤ accesses) ∧ (∀ f g, f < g → moment g ≠ 0 → moment f < moment g) ∧ (∀ f : Nat, moment f = 0 → alone.1[f]? = fs[f]?) ∧
      ∀ o : Others, LeavesReread c o →
        let r := rdecode w o n c fs b
        r.1.buf = alone.2.1 ∧ r.2 = alone.2.2 ∧ r.1.fs.length = alone.1.length ∧ r.1.k = accesses ∧
          ∀ f : Nat, r.1.fs[f]? = alone.1[f]?.map fun v => lastOr v (assigned o f (moment f) accesses) := by
  have hl' : fs.length = (wire c).length := by simpa [wire] using hl
  obtain ⟨μ, k, m, hO, h⟩ := rdstmts_sim (F := Reread c) w (decode w n) ((decl c).fields.map (·.2)) fs (wire c).length (decl c).dec ⟨fs, b⟩
    (fun _ => 0) 0 0 hl' (fun s hs => fineDec_of c _ s (List.all_eq_true.mp (dec_fine c) s hs)) (dec_inOrder c)
    ⟨fun _ => Nat.le_refl _, fun _ _ _ h => absurd rfl h, fun _ _ => rfl, fun _ _ => rfl⟩
  refine ⟨μ, k, hO.1, hO.2.1, hO.2.2.2, fun o ho => ?_⟩
  have h0 : (⟨fs, 0, b⟩ : RDSt).Rel o (fun _ => 0) 0 ⟨fs, b⟩ := by
    refine ⟨rfl, ⟨rfl, fun f => ⟨Nat.le_refl _, ?_⟩⟩, rfl⟩
    rw [assigned_self]
    cases fs[f]? <;> rfl
  obtain ⟨⟨h1, h2, h3⟩, h4⟩ := h o ho _ h0
  exact ⟨h3, h4, h2.1, h1, fun f => (h2.2 f).2⟩

/-- **C108.** A field nobody else sets during the call holds what `decode` alone leaves in it, whatever happens to the other fields. -/
theorem C108_untouched (w : World) (o : Others) (n : Nat) (c : Cls) (fs : List Val) (b : RBuf) (hl : fs.length = (layout c).length)
    (ho : LeavesReread c o) (f : Nat) (hf : ∀ k, k < (rdecode w o n c fs b).1.k → ∀ p ∈ o k, p.1 ≠ f) :
    (rdecode w o n c fs b).1.fs[f]? = (decode w (n + 1) c fs b).1[f]? := by
  obtain ⟨μ, K, hμ, -, -, hall⟩ := C108_outcome w n c fs b hl
  obtain ⟨-, -, -, hK, hall⟩ := hall o ho
  have h := hall f
  have hi := hμ f
  subst hK
  generalize μ f = i at h hi
  rw [h]
  have : assigned o f i (rdecode w o n c fs b).1.k = [] := by
    unfold assigned
    rw [List.map_eq_nil_iff, List.filter_eq_nil_iff]
    intro p hp
    obtain ⟨k, hk, hpk⟩ := List.mem_flatMap.mp hp
    have := List.mem_range'_1.mp hk
    simpa using hf k (by omega) p hpk
  rw [this]
  cases (decode w (n + 1) c fs b).1[f]? <;> rfl

/-- **C108.** Any other field holds what `decode` alone leaves in it or a value that was set during the call. -/
theorem C108_one_of (w : World) (o : Others) (n : Nat) (c : Cls) (fs : List Val) (b : RBuf) (hl : fs.length = (layout c).length)
    (ho : LeavesReread c o) (f : Nat) (v : Val) (hv : (rdecode w o n c fs b).1.fs[f]? = some v) :
    (decode w (n + 1) c fs b).1[f]? = some v ∨ ∃ k, k < (rdecode w o n c fs b).1.k ∧ (f, v) ∈ o k := by
  obtain ⟨μ, K, hμ, -, -, hall⟩ := C108_outcome w n c fs b hl
  obtain ⟨-, -, -, hK, hall⟩ := hall o ho
  have h := hall f
  have hi := hμ f
  subst hK
  generalize μ f = i at h hi
  rw [hv] at h
  cases ha : (decode w (n + 1) c fs b).1[f]? with
  | none => rw [ha] at h; cases h
  | some u =>
    rw [ha] at h
    simp only [Option.map_some, Option.some.injEq, lastOr] at h
    cases hlast : (assigned o f i (rdecode w o n c fs b).1.k).getLast? with
    | none => rw [hlast] at h; exact .inl (by rw [h]; rfl)
    | some x =>
      rw [hlast] at h
      simp only [Option.getD_some] at h
      subst h
      have hm := List.mem_of_getLast? hlast
      unfold assigned at hm
      obtain ⟨p, hp, rfl⟩ := List.mem_map.mp hm
      obtain ⟨hp1, hp2⟩ := List.mem_filter.mp hp
      obtain ⟨k, hk, hpk⟩ := List.mem_flatMap.mp hp1
      have := List.mem_range'_1.mp hk
      have he : p.1 = f := by simpa using hp2
      exact .inr ⟨k, by omega, by rw [← he]; exact hpk⟩

/-- **C108.** A message nobody else changes is decoded as alone. -/
theorem C108_quiet (w : World) (n : Nat) (c : Cls) (fs : List Val) (b : RBuf) (hl : fs.length = (layout c).length) :
    ((rdecode w (fun _ => []) n c fs b).1.fs, (rdecode w (fun _ => []) n c fs b).1.buf, (rdecode w (fun _ => []) n c fs b).2) =
      decode w (n + 1) c fs b := by
  have ho : LeavesReread c (fun _ => []) := fun k p hp => nomatch hp
  obtain ⟨_, _, -, -, -, hall⟩ := C108_outcome w n c fs b hl
  have h := hall _ ho
  have hf : (rdecode w (fun _ => []) n c fs b).1.fs = (decode w (n + 1) c fs b).1 :=
    List.ext_getElem? fun f => C108_untouched w _ n c fs b hl ho f (fun k _ p hp => nomatch hp)
  rw [hf, h.1, h.2.1]

/-! ### What does not hold -/

/-- A heartbeat in an SSE frame, and behind it bytes of what follows. -/
private def exBytes : RBuf := ⟨[0, 0, 0, 33, 0, 0, 0, 0, 0, 0, 0, 7, 0, 0, 0, 0, 0, 0, 0, 9] ++ List.replicate 200 0x20, [], 0⟩

/-- `setMsgType(40)` (logon) just before `decode` looks up the class of the body. -/
private def typeBetween : Others := fun k => if k = 3 then [(0, .num ⟨.i32, 40⟩)] else []

set_option maxRecDepth 10000 in
/-- **C108 violated.** If another thread sets the message type during the call, a part may be decoded as a message of another class: a heartbeat becomes a
logon, made of the bytes of the messages behind it.  Nothing is thrown. -/
theorem C108_type_violated :
    (let r := rdecode World.initial typeBetween 3 .sse_SseBinary (freshFields .sse_SseBinary) exBytes;
      r.2 = none ∧ 20 < r.1.buf.rd ∧ ∃ gs, r.1.fs[3]? = some (.obj .sse_Logon gs))
    ∧ (let r := decode World.initial 4 .sse_SseBinary (freshFields .sse_SseBinary) exBytes;
      r.2.2 = none ∧ r.2.1.rd = 20 ∧ ∃ gs, r.1[3]? = some (.obj .sse_Heartbeat gs)) :=
  ⟨⟨by decide +kernel, by decide +kernel, _, rfl⟩, by decide +kernel, by decide +kernel, _, rfl⟩

/-- `setBody(null)` just before `decode` of the body is called. -/
private def bodyBetween : Others := fun k => if k = 5 then [(3, .null)] else []

/-- **C108 violated.** If another thread sets the body during the call, `decode` may throw a `NullPointerException`. -/
theorem C108_body_violated :
    (rdecode World.initial bodyBetween 3 .sse_SseBinary (freshFields .sse_SseBinary) exBytes).2 = some .nullPointer := by
  decide +kernel

/-- A packet with the list 1, 2, 3. -/
private def exThree : RBuf := ⟨[7, 0, 0, 0, 3, 0, 1, 0, 2, 0, 3, 0], [], 0⟩

/-- Another list is set when two elements were added. -/
private def listLate (xs : Val) : Others := fun k => if k = 4 then [(1, xs)] else []

/-- **C108 violated.** If another thread sets a list during the call, received elements may be lost and others be there instead; nothing is thrown.  Or `decode`
throws a `NullPointerException`. -/
theorem C108_list_violated :
    (let r := rdecode World.initial (listLate (.list [.num ⟨.i16, 9⟩])) 3 .sample_NestedPacket_InerPacket
        (freshFields .sample_NestedPacket_InerPacket) exThree;
      r.2 = none ∧ r.1.fs[1]? = some (.list [.num ⟨.i16, 9⟩, .num ⟨.i16, 3⟩]))
    ∧ (rdecode World.initial (listLate .null) 3 .sample_NestedPacket_InerPacket (freshFields .sample_NestedPacket_InerPacket) exThree).2
        = some .nullPointer :=
  ⟨⟨by decide +kernel, rfl⟩, by decide +kernel⟩

/-! ### Examples -/

/-- `setMsgSeqNum(1)`, `setMsgBodyLen(5)` and `setMsgSeqNum(2)` when the sequence number was just read and the length was not. -/
private def plainBetween : Others := fun k => if k = 2 then [(1, .num ⟨.i64, 1⟩), (2, .num ⟨.i32, 5⟩), (1, .num ⟨.i64, 2⟩)] else []

private theorem plainBetween_leaves : LeavesReread .sse_SseBinary plainBetween := by
  intro k p hp
  unfold plainBetween at hp
  split at hp
  · rw [reread_iff]
    simp only [List.mem_cons, List.not_mem_nil, or_false] at hp
    rcases hp with rfl | rfl | rfl <;> decide
  · cases hp

set_option maxRecDepth 10000 in
/-- C108_outcome, C108_one_of: the sequence number set last stays, the length is the received one, the body is the received one. -/
example : let r := rdecode World.initial plainBetween 3 .sse_SseBinary (freshFields .sse_SseBinary) exBytes;
    r.2 = none ∧ r.1.buf.rd = 20 ∧ r.1.fs = [.num (.int 33), .num ⟨.i64, 2⟩, .num (.int 0), fresh .sse_Heartbeat, .num (.int 9)] :=
  ⟨by decide +kernel, by decide +kernel, rfl⟩
example := C108_outcome World.initial 3 .sse_SseBinary (freshFields .sse_SseBinary) exBytes (by decide)

/-- C108_untouched: the checksum. -/
example := C108_untouched World.initial plainBetween 3 .sse_SseBinary (freshFields .sse_SseBinary) exBytes (by decide) plainBetween_leaves 4 (by
  intro k _ p hp
  unfold plainBetween at hp
  split at hp
  · simp only [List.mem_cons, List.not_mem_nil, or_false] at hp
    rcases hp with rfl | rfl | rfl <;> decide
  · cases hp)

/-- 982 of the 1052 fields of the repository's classes may be set during a decode. -/
example : (allCls.map fun c => ((List.range (wire c).length).filter fun f => !rereadB c f).length).sum = 982 ∧
    (allCls.map fun c => (wire c).length).sum = 1052 := by decide +kernel

/-- C108_quiet. -/
example := C108_quiet World.initial 3 .sse_SseBinary (freshFields .sse_SseBinary) exBytes (by decide)

end FinProto
