import Verif.Props.Factory
import Verif.Props.Checksum
import Verif.Props.DecodeErrors
import Verif.Proofs.During
/-
C61: decode and encode while other threads change the registries.
-/
namespace FinProto

/-- Without changes it is the ordinary `decode` and `encode`. -/
theorem C61_no_changes (w : World) (hw : TypedSuppliers w) (n : Nat) (c : Cls) (fs : List Val) (b : RBuf) (v : Val) (o : WBuf)
    (ht : fieldsHaveType (javaTypes c) fs = true) :
    decodeDuring (fun _ => w) n c fs b = decode w n c fs b ∧ encodeDuring (fun _ => w) n v o = encode w n v o :=
  ⟨decodeDuring_same w hw _ n c fs b ht fun _ _ _ _ => rfl, (encodeDuring_same w (fun _ => w) n v o fun _ _ _ => rfl).1⟩

/-- **C61.** `F` are the factories when `decode` starts; `ops p` are the `register`/`remove` calls other threads have made on them
by the time `decode` has reached reader index `p`.  If none of these calls concerns a key that occurs in the message (read off the object that
`decode` leaves, whether it succeeds or throws), the outcome is the same as without them: same object, same reader index, same exception. -/
theorem C61_decode (r : Registry) (F : Factories) (hw : TypedSuppliers ⟨r, F.map⟩) (ops : Nat → List FacOp) (n : Nat) (c : Cls) (fs : List Val) (b : RBuf)
    (ht : fieldsHaveType (javaTypes c) fs = true)
    (hother : ∀ fac k, Carries (.obj c (decode ⟨r, F.map⟩ n c fs b).1) fac k → ∀ p, ∀ op ∈ ops p, op.stores fac k = none) :
    decodeDuring (fun p => ⟨r, (runFac F (ops p)).map⟩) n c fs b = decode ⟨r, F.map⟩ n c fs b := by
  refine decodeDuring_same ⟨r, F.map⟩ hw _ n c fs b ht fun fac k hc p => ?_
  show (runFac F (ops p)).map fac k = F.map fac k
  rw [runFac_map]
  have : (ops p).reverse.findSome? (FacOp.stores fac k) = none := by
    rw [List.findSome?_eq_none_iff]
    intro x hx
    exact hother fac k hc p x (by simpa using hx)
  simp only [lastStored, this, Option.getD_none]

theorem runCalls_other (r : Registry) (calls : List RegCall) (alg : String) (h : ∀ c ∈ calls, c.resets alg = false ∧ c.offers alg = none) :
    runCalls r calls alg = r alg := by
  induction calls generalizing r with
  | nil => rfl
  | cons c calls ih =>
    have h0 := h c (by simp)
    show runCalls (c.run r) calls alg = r alg
    rw [ih (c.run r) fun c' hc => h c' (by simp [hc])]
    cases c with
    | registry s =>
      simp only [RegCall.offers, RegCall.run, Registry.registry] at h0 ⊢
      have hne : ¬ s.algorithm = alg := by
        intro e
        rw [if_pos e] at h0
        cases h0.2
      split
      · rfl
      · show (if alg = s.algorithm then some s else r alg) = r alg
        rw [if_neg fun e => hne e.symm]
    | remove name =>
      simp only [RegCall.resets, beq_eq_false_iff_ne] at h0
      simp only [RegCall.run, Registry.remove]
      rw [if_neg fun e => h0.1 e.symm]
    | clear => simp [RegCall.resets] at h0
    | get name => rfl

/-- **C61.** The same for `encode` and the checksum registry: calls by other threads that concern only algorithms the message does not
use make no difference to bytes, object or exception. -/
theorem C61_encode (r : Registry) (F : Nat → Fac → Key → Option Val) (calls : Nat → List RegCall) (n : Nat) (v : Val) (b : WBuf)
    (hother : ∀ alg, Checksums v alg → ∀ p, ∀ c ∈ calls p, c.resets alg = false ∧ c.offers alg = none) :
    encodeDuring (fun p => ⟨runCalls r (calls p), F p⟩) n v b = encode ⟨r, F 0⟩ n v b :=
  (encodeDuring_same ⟨r, F 0⟩ _ n v b fun alg ha p => runCalls_other r (calls p) alg (hother alg ha p)).1

/-- **C61.** Consequently the outcome depends only on the registry entries the message refers to: in two processes whose factories agree on the keys
in the message and whose checksum registries agree on its algorithms, `decode` and `encode` give the same. -/
theorem C61_entries (w w' : World) (hw : TypedSuppliers w) (hw' : TypedSuppliers w') (n : Nat) (c : Cls) (fs : List Val) (b : RBuf) (v : Val) (o : WBuf)
    (ht : fieldsHaveType (javaTypes c) fs = true) :
    ((∀ fac k, Carries (.obj c (decode w n c fs b).1) fac k → w'.fac fac k = w.fac fac k) → decode w' n c fs b = decode w n c fs b)
      ∧ ((∀ alg, Checksums v alg → w'.svc alg = w.svc alg) → encode w' n v o = encode w n v o) := by
  constructor
  · intro h
    rw [← (C61_no_changes w' hw' n c fs b v o ht).1]
    exact decodeDuring_same w hw _ n c fs b ht fun fac k hc _ => h fac k hc
  · intro h
    rw [← (C61_no_changes w' hw' n c fs b v o ht).2]
    exact (encodeDuring_same w (fun _ => w') n v o fun alg ha _ => h alg ha).1

/-- Bytes of an SSE frame with a heartbeat (type 33). -/
private def beatBytes : List Byte := [0, 0, 0, 33, 0, 0, 0, 0, 0, 0, 0, 5, 0, 0, 0, 0, 0, 0, 0, 7]

private def beatFields : List Val :=
  [.num ⟨.i32, 33⟩, .num ⟨.i64, 5⟩, .num ⟨.i32, 0⟩, .obj .sse_Heartbeat [], .num ⟨.i32, 7⟩]

private theorem beat_decoded : decode World.initial 2 .sse_SseBinary (freshFields .sse_SseBinary) ⟨beatBytes, [], 0⟩ =
    (beatFields, ⟨beatBytes, [], 20⟩, none) := by rfl

private theorem beat_keys (fac : Fac) (k : Key) (hc : Carries (.obj .sse_SseBinary beatFields) fac k) : fac = .sse_SseBinary ∧ k = .int 33 := by
  cases hc with
  | here hm hk =>
    rw [show wire .sse_SseBinary = [.num .i32, .num .i64, .len .i32, .ext .sse_SseBinary 0, .cksum .i32 "SSE_BIN"] from rfl] at hm
    simp at hm
    obtain ⟨rfl, rfl⟩ := hm
    cases hk
    exact ⟨rfl, rfl⟩
  | field hm hk =>
    simp only [beatFields, List.mem_cons, List.not_mem_nil, or_false] at hm
    rcases hm with rfl | rfl | rfl | rfl | rfl
    · cases hk
    · cases hk
    · cases hk
    · cases hk with
      | here hm _ => simp [show wire .sse_Heartbeat = [] from rfl] at hm
      | field hm _ => cases hm
    · cases hk

/-- Changes made while the frame above is decoded: before the type is looked up, another thread removes one type, replaces another and registers a
new one with a different factory. -/
private def changes : Nat → List FacOp := fun p =>
  if p < 16 then [.remove .sse_SseBinary (.int 208)]
  else [.remove .sse_SseBinary (.int 208), .registerSse .sse_Logon 40 none, .register .szse_SzseBinary (.int 33) (some (fresh .szse_Logon))]

example : ∀ fac k, Carries (.obj .sse_SseBinary (decode ⟨Registry.initial, Factories.initial.map⟩ 2 .sse_SseBinary (freshFields .sse_SseBinary)
      ⟨beatBytes, [], 0⟩).1) fac k → ∀ p, ∀ op ∈ changes p, op.stores fac k = none := by
  intro fac k hc p op hop
  rw [show (⟨Registry.initial, Factories.initial.map⟩ : World) = World.initial from rfl, beat_decoded] at hc
  obtain ⟨rfl, rfl⟩ := beat_keys fac k hc
  unfold changes at hop
  split at hop
  · simp at hop; subst hop; rfl
  · simp at hop; rcases hop with rfl | rfl | rfl <;> rfl

/-- The SSE frame uses one algorithm only, so changes of CRC16 and CRC32 do not concern it. -/
example : ∀ alg, Checksums (.obj .sse_SseBinary beatFields) alg → ∀ p, ∀ c ∈ (fun _ => [.remove "CRC16", .registry crc32Service] : Nat → List RegCall) p,
    c.resets alg = false ∧ c.offers alg = none := by
  intro alg ha p c hc
  have halg : alg = "SSE_BIN" := by
    cases ha with
    | here hm =>
      rw [show wire .sse_SseBinary = [.num .i32, .num .i64, .len .i32, .ext .sse_SseBinary 0, .cksum .i32 "SSE_BIN"] from rfl] at hm
      simp at hm
      exact hm.2
    | field hm hk =>
      simp only [beatFields, List.mem_cons, List.not_mem_nil, or_false] at hm
      rcases hm with rfl | rfl | rfl | rfl | rfl
      · cases hk
      · cases hk
      · cases hk
      · cases hk with
        | here hm => simp [show wire .sse_Heartbeat = [] from rfl] at hm
        | field hm _ => cases hm
      · cases hk
  subst halg
  simp only [List.mem_cons, List.not_mem_nil, or_false] at hc
  rcases hc with rfl | rfl <;> decide

/-- A change that does concern the key matters: the type is removed while the header is being read. -/
example : (decodeDuring (fun p => ⟨Registry.initial, (runFac Factories.initial (if p < 10 then [] else [.remove .sse_SseBinary (.int 33)])).map⟩) 2
    .sse_SseBinary (freshFields .sse_SseBinary) ⟨beatBytes, [], 0⟩).2.2 = some .illegalArgument := by decide +kernel

/-- `C61_no_changes`, `C61_entries` on the frame above; in the second world the key of another class is not registered. -/
example := C61_no_changes World.initial C28_default_world.1 2 .sse_SseBinary (freshFields .sse_SseBinary) ⟨beatBytes, [], 0⟩
  (.obj .sse_SseBinary beatFields) ⟨[], 0, 100⟩ (by decide +kernel)

private def fewer : World := ⟨World.initial.svc, fun fac k => if k = .int 208 then none else World.initial.fac fac k⟩

private theorem fewer_typed : TypedSuppliers fewer := by
  intro fac k v h
  unfold fewer at h
  by_cases hk : k = .int 208 <;> simp only [hk, if_true, if_false] at h
  · cases h
  · exact C28_default_world.1 fac k v h

example : decode fewer 2 .sse_SseBinary (freshFields .sse_SseBinary) ⟨beatBytes, [], 0⟩
    = decode World.initial 2 .sse_SseBinary (freshFields .sse_SseBinary) ⟨beatBytes, [], 0⟩ := by
  refine (C61_entries World.initial fewer C28_default_world.1 fewer_typed 2 .sse_SseBinary (freshFields .sse_SseBinary) ⟨beatBytes, [], 0⟩
    (.obj .sse_SseBinary beatFields) ⟨[], 0, 100⟩ (by decide +kernel)).1 fun fac k hc => ?_
  rw [beat_decoded] at hc
  rw [(beat_keys fac k hc).2]
  unfold fewer
  dsimp only
  rw [if_neg (by decide : ¬ (Key.int 33 = Key.int 208))]

end FinProto
