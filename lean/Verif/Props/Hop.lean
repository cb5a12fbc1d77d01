import Verif.Proofs.HopDecode
import Verif.Proofs.HopSmall
import Verif.Props.Stable
import Verif.Props.Amount
/-
C67: what happens to a message that is sent on from receiver to receiver.
-/
namespace FinProto

/-- What is kept from hop to hop. -/
structure Settled (w : World) (m : Nat) (c : Cls) (fs : List Val) : Prop where
  typed : wellTyped (.obj c fs) = true
  complete : complete (.obj c fs) = true
  legible : legible w (.obj c fs)
  depth : depth (.obj c fs) ≤ m
  same : received (blank (.obj c fs)) = blank (.obj c fs)

theorem relayable_blind : Blind relayable := by
  intro k t v
  cases t with
  | text n pad left => cases left <;> cases v <;> exact Iff.rfl
  | list e =>
    cases e with
    | vstr =>
      cases v with
      | list xs =>
        simp only [relayable, blankField]
        have : ∀ ys : List Val, ((∃ x ∈ blankElems ys, x.text ≠ []) ↔ ∃ x ∈ ys, x.text ≠ []) ∧ (blankElems ys = [] ↔ ys = []) := by
          intro ys
          induction ys with
          | nil => simp [blankElems]
          | cons y ys ih =>
            have hy : (blankElem y).text = y.text := by cases y <;> rfl
            simp only [blankElems, List.mem_cons, exists_eq_or_imp, ih.1, hy, true_and]
            simp
        rw [(this xs).1, (this xs).2]
      | _ => exact Iff.rfl
    | _ => cases v <;> exact Iff.rfl
  | _ => cases v <;> exact Iff.rfl

/-- One hop. -/
theorem hop_step (w ws : World) (m n : Nat) (c : Cls) (fs : List Val) (out : WBuf) (hv : wellTyped (.obj c fs) = true) (hout : out.Valid)
    (hok : (encode ws n (.obj c fs) out).2.2 = none) (hl : legible w (.obj c fs)) (hm : depth (.obj c fs) ≤ m) :
    ∃ bytes gs, (encode ws n (.obj c fs) out).1 = .obj c gs ∧ (encode ws n (.obj c fs) out).2.1.data = out.data ++ bytes
      ∧ gs = (match settle ws.svc out.readable (.obj c fs) with | .obj _ gs => gs | _ => [])
      ∧ wellTyped (.obj c gs) = true ∧ complete (.obj c gs) = true ∧ depth (.obj c gs) ≤ m ∧ blank (.obj c gs) = blank (.obj c fs)
      ∧ (frameless (.obj c fs) = true → gs = fs)
      ∧ ∀ before after spare, decode w m c (freshFields c) ⟨before ++ bytes ++ after, spare, before.length⟩ =
          (receivedFields (wire c) gs, ⟨before ++ bytes ++ after, spare, before.length + bytes.length⟩, none) := by
  obtain ⟨h1, _, h2⟩ := encode_ok ws n _ out hv hout hok
  obtain ⟨gs, hgs⟩ := settle_obj ws.svc out.readable c fs
  have hv' := settle_wellTyped ws.svc out.readable _ hv
  have hc' := settle_complete ws.svc out.readable _ hv
  have hd' := settle_depth ws.svc out.readable _ hv
  have hl' := (legible_settle w ws.svc out.readable _ hv).mpr hl
  have hb' := blank_settle ws.svc out.readable _ hv
  have hf := settle_frameless ws.svc out.readable (.obj c fs)
  rw [hgs] at hv' hc' hd' hl' h2 hb' hf
  refine ⟨image (.obj c gs), gs, by rw [h2], by rw [h2]; rfl, by rw [hgs], hv', by rw [hc', h1], by omega, hb', ?_, ?_⟩
  · intro h
    have := hf h
    simpa using this
  · exact decode_image w m c gs hv' (by rw [hc', h1]) hl' (by omega)

theorem Settled.hop {w : World} {m : Nat} {c : Cls} {fs gs : List Val} (h : Settled w m c fs) (hv : wellTyped (.obj c gs) = true)
    (hc : FinProto.complete (.obj c gs) = true) (hb : blank (.obj c gs) = blank (.obj c fs)) :
    Settled w m c (receivedFields (wire c) gs) ∧ blank (.obj c (receivedFields (wire c) gs)) = blank (.obj c fs) := by
  obtain ⟨r1, r2, r3⟩ := received_facts c gs hv hc
  have hbr : blank (.obj c (receivedFields (wire c) gs)) = blank (.obj c fs) := by
    have := blank_received (.obj c gs)
    rw [hb, h.same] at this
    exact this
  refine ⟨⟨r1, r2, ?_, ?_, ?_⟩, hbr⟩
  · rw [legible_blank, hbr, ← legible_blank]; exact h.legible
  · rw [← depth_blank, hbr, depth_blank]; exact h.depth
  · rw [hbr]; exact h.same

/-- What holds after any number of hops from a settled message. -/
theorem settled_chain {w : World} {m : Nat} {c : Cls} {fs gs : List Val} (h : Settled w m c fs) (hr : SentOn w m c fs gs) :
    Settled w m c gs ∧ blank (.obj c gs) = blank (.obj c fs)
      ∧ (frameless (.obj c fs) = true → receivedFields (wire c) fs = fs → gs = fs) := by
  induction hr with
  | start => exact ⟨h, rfl, fun _ _ => rfl⟩
  | hop ws n out bytes before after spare b' _ hout hok hbytes hd ih =>
    obtain ⟨ih1, ih2, ih3⟩ := ih
    obtain ⟨bytes', gs1, _, hb', _, hv, hc, _, hbl, hf, hdec⟩ := hop_step w ws m n c _ out ih1.typed hout hok ih1.legible ih1.depth
    rw [hbytes] at hb'
    have := List.append_cancel_left hb'
    subst this
    rw [hdec before after spare] at hd
    simp only [Prod.mk.injEq, and_true] at hd
    obtain ⟨rfl, _⟩ := hd
    obtain ⟨s1, s2⟩ := ih1.hop hv hc hbl
    refine ⟨s1, s2.trans ih2, ?_⟩
    intro hfl hrec
    have e := ih3 hfl hrec
    subst e
    rw [hf hfl]
    exact hrec

/-- **C67.** Send any message in which nothing vanishes (`relayable`) once: encode it, by anyone, behind any bytes, and decode the bytes, wherever they are in a
buffer. From then on it is settled, however often it is sent on: every later receiver gets the same message as the first (`blank` leaves out the length and
checksum fields, which every sender computes anew; without such fields the objects are identical), and if there is room in the buffer the next hop succeeds, too:
`encode` writes, `decode` accepts and consumes exactly what was written. -/
theorem C67_settles (w ws : World) (m n : Nat) (c : Cls) (fs : List Val) (out : WBuf) (hv : wellTyped (.obj c fs) = true) (hout : out.Valid)
    (hok : (encode ws n (.obj c fs) out).2.2 = none) (hl : legible w (.obj c fs)) (hm : depth (.obj c fs) ≤ m)
    (hr : everywhere relayable (.obj c fs)) :
    ∃ bytes first, (encode ws n (.obj c fs) out).2.1.data = out.data ++ bytes
      ∧ (∀ before after spare, decode w m c (freshFields c) ⟨before ++ bytes ++ after, spare, before.length⟩ =
          (first, ⟨before ++ bytes ++ after, spare, before.length + bytes.length⟩, none))
      ∧ ∀ later, SentOn w m c first later →
          blank (.obj c later) = blank (.obj c first) ∧ (frameless (.obj c first) = true → later = first)
          ∧ ∀ (ws' : World) (n' : Nat) (out' : WBuf), out'.Valid → m ≤ n' → out'.data.length + (image (.obj c later)).length ≤ out'.maxCap →
              ∃ bytes' next, (encode ws' n' (.obj c later) out').2.2 = none
                ∧ (encode ws' n' (.obj c later) out').2.1.data = out'.data ++ bytes'
                ∧ ∀ before after spare, decode w m c (freshFields c) ⟨before ++ bytes' ++ after, spare, before.length⟩ =
                    (next, ⟨before ++ bytes' ++ after, spare, before.length + bytes'.length⟩, none) := by
  obtain ⟨bytes, gs, _, h1, hgs, hv', hc', hd', hbl, _, hdec⟩ := hop_step w ws m n c fs out hv hout hok hl hm
  refine ⟨bytes, _, h1, hdec, ?_⟩
  have hrel : everywhere relayable (.obj c gs) := by
    have := (everywhere_settle relayable relayable_blind ws.svc out.readable _ hv).mpr hr
    obtain ⟨gs', hgs'⟩ := settle_obj ws.svc out.readable c fs
    rw [hgs'] at this hgs
    dsimp only at hgs
    rw [hgs]
    exact this
  have hleg : legible w (.obj c gs) := by rw [legible_blank, hbl, ← legible_blank]; exact hl
  obtain ⟨r1, r2, r3⟩ := received_facts c gs hv' hc'
  obtain ⟨t1, t2⟩ := received_twice c gs hv' hc' hrel
  have hs : Settled w m c (receivedFields (wire c) gs) :=
    ⟨r1, r2, t2 w hleg, by omega, by
      have := blank_received (received (.obj c gs))
      rw [t1] at this
      exact this.symm⟩
  intro later hlater
  obtain ⟨s1, s2, s3⟩ := settled_chain hs hlater
  refine ⟨s2, fun hf => s3 hf (by simpa [received] using t1), ?_⟩
  intro ws' n' out' hout' hn hroom
  have hok' := (C30_success_iff ws' n' (.obj c later) out' s1.typed hout' (Nat.le_trans s1.depth hn)).mpr ⟨s1.complete, hroom⟩
  obtain ⟨bytes', gs', _, h2, _, _, _, _, hbl', _, hdec'⟩ := hop_step w ws' m n' c later out' s1.typed hout' hok' s1.legible s1.depth
  exact ⟨bytes', _, hok', h2, hdec'⟩

/-- **C67, seen from the receiver.** Whatever bytes `decode` accepted: if the decoded strings fit their length prefixes (U+FFFD, which stands for bytes that are
not UTF-8, takes three bytes) and nothing vanishes in it, the object can be sent on (if there is room), the next receiver can decode it, and from there on it is
settled in the same sense. `PlainKeys`: no factory has U+FFFD in a text key. -/
theorem C67_accepted (w : World) (hw : FreshSuppliers w) (hk : PlainKeys w) (m : Nat) (c : Cls) (b b' : RBuf) (fs : List Val)
    (hd : decode w m c (freshFields c) b = (fs, b', none)) (hr : everywhere resendable (.obj c fs))
    (ws : World) (n : Nat) (hn : m ≤ n) (out : WBuf) (hout : out.Valid) (hroom : out.data.length + (image (.obj c fs)).length ≤ out.maxCap) :
    ∃ bytes second, (encode ws n (.obj c fs) out).2.2 = none ∧ (encode ws n (.obj c fs) out).2.1.data = out.data ++ bytes
      ∧ (∀ before after spare, decode w m c (freshFields c) ⟨before ++ bytes ++ after, spare, before.length⟩ =
          (second, ⟨before ++ bytes ++ after, spare, before.length + bytes.length⟩, none))
      ∧ ∀ later, SentOn w m c second later →
          blank (.obj c later) = blank (.obj c second) ∧ (frameless (.obj c second) = true → later = second)
          ∧ ∀ (ws' : World) (n' : Nat) (out' : WBuf), out'.Valid → m ≤ n' → out'.data.length + (image (.obj c later)).length ≤ out'.maxCap →
              ∃ bytes' next, (encode ws' n' (.obj c later) out').2.2 = none
                ∧ (encode ws' n' (.obj c later) out').2.1.data = out'.data ++ bytes'
                ∧ ∀ before after spare, decode w m c (freshFields c) ⟨before ++ bytes' ++ after, spare, before.length⟩ =
                    (next, ⟨before ++ bytes' ++ after, spare, before.length + bytes'.length⟩, none) := by
  obtain ⟨ht, hok⟩ := C55_sendable w hw m c b b' fs hd ws n hn out hout hroom
  have hleg : legible w (.obj c fs) := decode_leg w hw hk m c b fs b' hd hr
  have hrel : everywhere relayable (.obj c fs) :=
    everywhere_combine (Q := fun _ => True) (S := fun _ => True) (P := resendable) (R := resendable)
      ⟨fun _ _ _ _ => trivial, fun _ _ => trivial, fun _ _ _ _ a _ => a.2⟩ c fs trivial
      (everywhere_always _ (fun _ _ v => by cases v <;> trivial) c fs) hr hr
  obtain ⟨bytes, second, h1, h2, h3⟩ := C67_settles w ws m n c fs out ht hout hok hleg (C57_complete w hw m c b b' fs hd).2 hrel
  exact ⟨bytes, second, hok, h1, h2, h3⟩

/-- **C67 for all protocols but the sample protocol:** the only condition left is that the decoded length-prefixed strings fit their prefixes. -/
theorem C67_exchange (w : World) (hw : FreshSuppliers w) (hdef : DefaultClasses w) (hk : PlainKeys w) (m : Nat) (c : Cls)
    (hc : c.mod ≠ .sample) (b b' : RBuf) (fs : List Val)
    (hd : decode w m c (freshFields c) b = (fs, b', none)) (hf : everywhere fitsAgain (.obj c fs))
    (ws : World) (n : Nat) (hn : m ≤ n) (out : WBuf) (hout : out.Valid) (hroom : out.data.length + (image (.obj c fs)).length ≤ out.maxCap) :
    ∃ bytes second, (encode ws n (.obj c fs) out).2.2 = none ∧ (encode ws n (.obj c fs) out).2.1.data = out.data ++ bytes
      ∧ (∀ before after spare, decode w m c (freshFields c) ⟨before ++ bytes ++ after, spare, before.length⟩ =
          (second, ⟨before ++ bytes ++ after, spare, before.length + bytes.length⟩, none))
      ∧ ∀ later, SentOn w m c second later →
          blank (.obj c later) = blank (.obj c second) ∧ (frameless (.obj c second) = true → later = second)
          ∧ ∀ (ws' : World) (n' : Nat) (out' : WBuf), out'.Valid → m ≤ n' → out'.data.length + (image (.obj c later)).length ≤ out'.maxCap →
              ∃ bytes' next, (encode ws' n' (.obj c later) out').2.2 = none
                ∧ (encode ws' n' (.obj c later) out').2.1.data = out'.data ++ bytes'
                ∧ ∀ before after spare, decode w m c (freshFields c) ⟨before ++ bytes' ++ after, spare, before.length⟩ =
                    (next, ⟨before ++ bytes' ++ after, spare, before.length + bytes'.length⟩, none) := by
  refine C67_accepted w hw hk m c b b' fs hd ?_ ws n hn out hout hroom
  refine everywhere_combine (Q := fun d => d.mod = c.mod) (S := fun t => t.ordinary = true) (P := fitsAgain) (R := fitsAgain)
    ⟨?_, ?_, ?_⟩ c fs rfl (C57_one_protocol w hw hdef m c b b' fs hd) hf hf
  · intro d hd t ht
    rcases ordinary_table d with h | h
    · exact absurd (hd.symm.trans h) hc
    · rw [List.all_eq_true] at h
      exact h t ht
  · intro e he
    cases e <;> first | rfl | exact he | (simp [WTy.ordinary] at he)
  · intro k t v hs hf _
    refine ⟨hf, ?_⟩
    cases t with
    | text n pad left =>
      cases left with
      | true => simp [WTy.ordinary] at hs
      | false => trivial
    | list e =>
      cases e with
      | vstr => simp [WTy.ordinary] at hs
      | _ => cases v <;> trivial
    | _ => cases v <;> trivial

/-- Fields without a length-prefixed string. -/
def WTy.fixedText : WTy → Bool
  | .vstr => false
  | .list .vstr => false
  | _ => true

/-- SSE and BJSE have no length-prefixed strings. -/
theorem fixedText_table (c : Cls) : (c.mod ≠ .sse ∧ c.mod ≠ .bjse) ∨ (wire c).all WTy.fixedText = true := by
  cases c <;> first | exact .inr (by decide) | exact .inl (by decide)

/-- **C67 for SSE and BJSE**: no condition on the decoded message is left. -/
theorem C67_fixed_text (w : World) (hw : FreshSuppliers w) (hdef : DefaultClasses w) (hk : PlainKeys w) (m : Nat) (c : Cls)
    (hc : c.mod = .sse ∨ c.mod = .bjse) (b b' : RBuf) (fs : List Val)
    (hd : decode w m c (freshFields c) b = (fs, b', none))
    (ws : World) (n : Nat) (hn : m ≤ n) (out : WBuf) (hout : out.Valid) (hroom : out.data.length + (image (.obj c fs)).length ≤ out.maxCap) :
    ∃ bytes second, (encode ws n (.obj c fs) out).2.2 = none ∧ (encode ws n (.obj c fs) out).2.1.data = out.data ++ bytes
      ∧ (∀ before after spare, decode w m c (freshFields c) ⟨before ++ bytes ++ after, spare, before.length⟩ =
          (second, ⟨before ++ bytes ++ after, spare, before.length + bytes.length⟩, none))
      ∧ ∀ later, SentOn w m c second later →
          blank (.obj c later) = blank (.obj c second) ∧ (frameless (.obj c second) = true → later = second)
          ∧ ∀ (ws' : World) (n' : Nat) (out' : WBuf), out'.Valid → m ≤ n' → out'.data.length + (image (.obj c later)).length ≤ out'.maxCap →
              ∃ bytes' next, (encode ws' n' (.obj c later) out').2.2 = none
                ∧ (encode ws' n' (.obj c later) out').2.1.data = out'.data ++ bytes'
                ∧ ∀ before after spare, decode w m c (freshFields c) ⟨before ++ bytes' ++ after, spare, before.length⟩ =
                    (next, ⟨before ++ bytes' ++ after, spare, before.length + bytes'.length⟩, none) := by
  refine C67_exchange w hw hdef hk m c (by rcases hc with h | h <;> rw [h] <;> decide) b b' fs hd ?_ ws n hn out hout hroom
  refine everywhere_combine (Q := fun d => d.mod = c.mod) (S := fun t => t.fixedText = true) (P := always) (R := always)
    ⟨?_, ?_, ?_⟩ c fs rfl (C57_one_protocol w hw hdef m c b b' fs hd) (everywhere_always _ (fun _ _ _ => trivial) c fs)
    (everywhere_always _ (fun _ _ _ => trivial) c fs)
  · intro d hd t ht
    rcases fixedText_table d with h | h
    · rw [hd] at h
      rcases hc with hc | hc
      · exact absurd hc h.1
      · exact absurd hc h.2
    · rw [List.all_eq_true] at h
      exact h t ht
  · intro e he
    cases e <;> first | rfl | (simp [WTy.fixedText] at he)
  · intro k t v hs _ _
    cases t with
    | vstr => simp [WTy.fixedText] at hs
    | _ => trivial

/-- **C67 for all protocols but the sample protocol, without a condition on the decoded message:** it is enough that it was decoded from less than 715 827 883 bytes
(a third of 2 GB). -/
theorem C67_short (w : World) (hw : FreshSuppliers w) (hdef : DefaultClasses w) (hk : PlainKeys w) (m : Nat) (c : Cls)
    (hc : c.mod ≠ .sample) (b b' : RBuf) (fs : List Val)
    (hd : decode w m c (freshFields c) b = (fs, b', none)) (hshort : b'.rd - b.rd < 715827883)
    (ws : World) (n : Nat) (hn : m ≤ n) (out : WBuf) (hout : out.Valid) (hroom : out.data.length + (image (.obj c fs)).length ≤ out.maxCap) :
    ∃ bytes second, (encode ws n (.obj c fs) out).2.2 = none ∧ (encode ws n (.obj c fs) out).2.1.data = out.data ++ bytes
      ∧ (∀ before after spare, decode w m c (freshFields c) ⟨before ++ bytes ++ after, spare, before.length⟩ =
          (second, ⟨before ++ bytes ++ after, spare, before.length + bytes.length⟩, none))
      ∧ ∀ later, SentOn w m c second later →
          blank (.obj c later) = blank (.obj c second) ∧ (frameless (.obj c second) = true → later = second)
          ∧ ∀ (ws' : World) (n' : Nat) (out' : WBuf), out'.Valid → m ≤ n' → out'.data.length + (image (.obj c later)).length ≤ out'.maxCap →
              ∃ bytes' next, (encode ws' n' (.obj c later) out').2.2 = none
                ∧ (encode ws' n' (.obj c later) out').2.1.data = out'.data ++ bytes'
                ∧ ∀ before after spare, decode w m c (freshFields c) ⟨before ++ bytes' ++ after, spare, before.length⟩ =
                    (next, ⟨before ++ bytes' ++ after, spare, before.length + bytes'.length⟩, none) := by
  by_cases hfix : c.mod = .sse ∨ c.mod = .bjse
  · exact C67_fixed_text w hw hdef hk m c hfix b b' fs hd ws n hn out hout hroom
  · refine C67_exchange w hw hdef hk m c hc b b' fs hd ?_ ws n hn out hout hroom
    refine fits_of_chars c fs ?_ (C57_one_protocol w hw hdef m c b b' fs hd) ?_
    · revert hc hfix
      cases c.mod <;> simp <;> rfl
    · have := (C62_contents w hw m c b b' fs none hd).2.1
      omega

/-- **C67.** A freshly started process meets the hypotheses on the factories. -/
theorem C67_default_world : FreshSuppliers World.initial ∧ DefaultClasses World.initial ∧ PlainKeys World.initial := by
  refine ⟨C31_default_factories, C28_default_world.2, ?_⟩
  intro fac s v h hmem
  obtain ⟨r, hr, _, h2, _⟩ := (default_create fac (.str s) v).mp (by
    have : Factories.initial.map fac (.str s) = some v := h
    simp only [Factories.create, this])
  have : defaultRegs.all (fun r => match r.key with | .str s => !s.contains 0xFFFD | _ => true) = true := by decide +kernel
  rw [List.all_eq_true] at this
  have := this r hr
  rw [h2] at this
  simp at this
  exact this hmem

/-- The hypotheses of `C67_settles` are met by a frame whose text is longer than its field: the first receiver gets the beginning of it. -/
def exLong : Val := .obj .sse_SseBinary
  [.num ⟨.i32, 206⟩, .num ⟨.i64, 5⟩, .num ⟨.i32, 999⟩,
    .obj .sse_ExecRptSync [.list [.obj .sse_ExecRptSync_SubExecRptSync
      [.str [0x4E2D, 0x6587, 0x41, 0x42, 0x43], .num ⟨.i32, 1⟩, .num ⟨.i64, 2⟩]]],
    .num ⟨.i32, 0x55⟩]

theorem exLong_legible : legible World.initial exLong := by
  refine ⟨trivial, trivial, trivial, ⟨⟨_, rfl, rfl⟩, ⟨?_, trivial⟩⟩, trivial, trivial⟩
  exact ⟨by decide, ⟨by simp [legibleField], trivial, trivial, trivial⟩, trivial⟩

example : wellTyped exLong = true ∧ (encode World.initial 3 exLong ⟨[9], 0, 100⟩).2.2 = none ∧ depth exLong ≤ 3
    ∧ everywhere relayable exLong :=
  ⟨by decide +kernel, by decide +kernel, by decide +kernel,
    trivial, trivial, trivial, ⟨trivial, ⟨trivial, ⟨trivial, trivial, trivial, trivial, trivial⟩, trivial⟩, trivial⟩, trivial, trivial⟩

/-- The texts in the first element of the list in the body of a frame. -/
def bodyText : List Val → Option JStr
  | [_, _, _, .obj _ [.list (.obj _ (x :: _) :: _)], _] => some x.text
  | _ => none

/-- The first receiver gets the first eight bytes of the text, and so does the second. -/
example :
    let first := decode World.initial 3 .sse_SseBinary (freshFields .sse_SseBinary) ⟨(encode World.initial 3 exLong ⟨[9], 0, 100⟩).2.1.data, [], 1⟩
    let again := encode World.initial 3 (.obj .sse_SseBinary first.1) ⟨[], 0, 100⟩
    let second := decode World.initial 3 .sse_SseBinary (freshFields .sse_SseBinary) ⟨again.2.1.data, [], 0⟩
    first.2.2 = none ∧ bodyText first.1 = some [0x4E2D, 0x6587, 0x41, 0x42] ∧ second.2.2 = none ∧ bodyText second.1 = bodyText first.1 := by
  decide +kernel

/-- The hypotheses of `C67_accepted`, `C67_exchange` and `C67_fixed_text` are met by the bytes of `C55_replacement_violated`: text that is not UTF-8. The second
receiver gets less than the first, but the third gets what the second got. -/
example :
    let first := decode World.initial 1 .sse_ExecRptInfo (freshFields .sse_ExecRptInfo)
      ⟨[0, 7, 0, 1, 0x80, 0x80, 0x80, 0x80, 0x80, 0x80, 0x80, 0x80, 0, 0], [], 0⟩
    let sent := encode World.initial 1 (.obj .sse_ExecRptInfo first.1) ⟨[], 0, 100⟩
    let second := decode World.initial 1 .sse_ExecRptInfo (freshFields .sse_ExecRptInfo) ⟨sent.2.1.data, [], 0⟩
    let again := encode World.initial 1 (.obj .sse_ExecRptInfo second.1) ⟨[], 0, 100⟩
    let third := decode World.initial 1 .sse_ExecRptInfo (freshFields .sse_ExecRptInfo) ⟨again.2.1.data, [], 0⟩
    first.2.2 = none ∧ sent.2.2 = none ∧ second.2.2 = none ∧ again.2.2 = none ∧ third.2.2 = none
      ∧ first.1[1]?.map depthTexts = some [[0xFFFD, 0xFFFD, 0xFFFD, 0xFFFD, 0xFFFD, 0xFFFD, 0xFFFD, 0xFFFD]]
      ∧ second.1[1]?.map depthTexts = some [[0xFFFD, 0xFFFD, 0xFFFD]] ∧ third.1[1]?.map depthTexts = second.1[1]?.map depthTexts := by
  decide +kernel

/-- **C67, the bound of `C67_short`.** `n` bytes that are not UTF-8, received in a length-prefixed string, become `n` characters U+FFFD, and take `3 * n` bytes when
they are sent on. From 715 827 883 such bytes on these are more than a prefix of 32 bits can say, although the string could be received. -/
theorem C67_growing (n : Nat) :
    (utf8Enc (utf8Dec (List.replicate n (0x80 : Byte)))).length = 3 * n
      ∧ (715827883 ≤ n → n < 2 ^ 31 → countFits (conv .risk).strLen n ∧ ¬ countFits (conv .risk).strLen (3 * n)) := by
  have h : utf8Dec (List.replicate n (0x80 : Byte)) = List.replicate n repl := by
    induction n with
    | zero => rfl
    | succ n ih =>
      rw [List.replicate_succ, utf8Dec_cons]
      have : utf8Step (0x80 : Byte) (List.replicate n (0x80 : Byte)) = ([repl], 0) := by
        unfold utf8Step
        rfl
      rw [this, List.drop_zero, ih]
      rfl
  constructor
  · rw [h]
    clear h
    induction n with
    | zero => rfl
    | succ n ih =>
      have : utf8Enc (List.replicate (n + 1) repl) = utf8Enc [repl] ++ utf8Enc (List.replicate n repl) := by
        cases n <;> rfl
      rw [this, List.length_append, ih, show (utf8Enc [repl]).length = 3 by decide +kernel]
      omega
  · intro h1 h2
    simp only [countFits, show (conv .risk).strLen = PTy.i32 from rfl]
    simp only [PTy.size]
    omega

/-- `C67_settles` on that message. -/
example := C67_settles World.initial World.initial 3 3 .sse_SseBinary _ ⟨[9], 0, 100⟩ (by decide +kernel : wellTyped exLong = true) ⟨by decide, by decide⟩
  (by decide +kernel) ⟨trivial, trivial, trivial, ⟨⟨_, rfl, rfl⟩, ⟨by decide, ⟨(fun h => by cases h), trivial, trivial, trivial⟩, trivial⟩, trivial⟩, trivial, trivial⟩
  (by decide +kernel)
  ⟨trivial, trivial, trivial, ⟨trivial, ⟨trivial, ⟨trivial, trivial, trivial, trivial, trivial⟩, trivial⟩, trivial⟩, trivial, trivial⟩

end FinProto
