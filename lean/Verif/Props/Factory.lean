import Verif.Spec.Factory
import Verif.Props.RoundTrip
import Verif.Proofs.Everywhere
import Verif.Proofs.MessageTypes
/-
C38–C41: message factories and message types.
-/
namespace FinProto

theorem runFac_append (F : Factories) (a b : List FacOp) : runFac F (a ++ b) = runFac (runFac F a) b := by
  induction a generalizing F with
  | nil => rfl
  | cons op a ih => cases op <;> simp only [List.cons_append, runFac, ih]

theorem runFac_map (F : Factories) (ops : List FacOp) (f : Fac) (k : Key) :
    (runFac F ops).map f k = lastStored f k (F.map f k) ops := by
  unfold lastStored
  induction ops generalizing F with
  | nil => rfl
  | cons op ops ih =>
    simp only [List.reverse_cons, List.findSome?_append]
    have key : ∀ G : Factories, G.map f k = (FacOp.stores f k op).getD (F.map f k) →
        (List.findSome? (FacOp.stores f k) ops.reverse).getD (G.map f k) =
          ((List.findSome? (FacOp.stores f k) ops.reverse).or (List.findSome? (FacOp.stores f k) [op])).getD (F.map f k) := by
      intro G hG
      cases List.findSome? (FacOp.stores f k) ops.reverse with
      | some x => rfl
      | none =>
        simp only [Option.getD_none, Option.none_or, List.findSome?_cons, List.findSome?_nil, hG]
        cases FacOp.stores f k op <;> rfl
    cases op with
    | register f' k' s =>
      rw [runFac, ih]
      refine key _ ?_
      simp only [Factories.register, Factories.put, FacOp.stores]
      by_cases h : f' = f ∧ k' = k
      · rw [if_pos h, if_pos ⟨h.1.symm, h.2.symm⟩]; rfl
      · rw [if_neg h, if_neg fun h' => h ⟨h'.1.symm, h'.2.symm⟩]; rfl
    | registerSse c t s =>
      rw [runFac, ih]
      refine key _ ?_
      simp only [Factories.registerSse, Factories.put, FacOp.stores]
      by_cases h : f = .sse_SseBinary ∧ k = .int t
      · rw [if_pos h, if_pos h]; rfl
      · rw [if_neg h, if_neg h]; rfl
    | remove f' k' =>
      rw [runFac, ih]
      refine key _ ?_
      simp only [Factories.remove, FacOp.stores]
      by_cases h : f' = f ∧ k' = k
      · rw [if_pos h, if_pos ⟨h.1.symm, h.2.symm⟩]; rfl
      · rw [if_neg h, if_neg fun h' => h ⟨h'.1.symm, h'.2.symm⟩]; rfl

/-- **C38.** After any history of `register`/`remove` calls, `create(key)` gives the object of the supplier registered last under the key, unless it was
removed since (or is null); then it throws `IllegalArgumentException`. -/
theorem C38_create (F : Factories) (ops : List FacOp) (f : Fac) (k : Key) :
    (runFac F ops).create f k = match lastStored f k (F.map f k) ops with
      | some v => .ok v
      | none => .error .illegalArgument := by
  simp only [Factories.create, runFac_map]
  cases lastStored f k (F.map f k) ops <;> rfl

/-- **C38.** `remove` says whether there was a mapping. -/
theorem C38_remove_result (F : Factories) (ops : List FacOp) (f : Fac) (k : Key) :
    ((runFac F ops).remove f k).2 = (lastStored f k (F.map f k) ops).isSome := by
  simp only [Factories.remove, runFac_map]

/-- **C38.** Calls on other factories or other keys have no effect. -/
theorem C38_independent (F : Factories) (ops : List FacOp) (f : Fac) (k : Key) (h : ∀ op ∈ ops, FacOp.stores f k op = none) :
    (runFac F ops).create f k = F.create f k := by
  rw [C38_create]
  have : ops.reverse.findSome? (FacOp.stores f k) = none := by
    rw [List.findSome?_eq_none_iff]
    intro x hx
    exact h x (by simpa using hx)
  simp only [lastStored, this, Option.getD_none, Factories.create]
  cases F.map f k <;> rfl

example : (runFac Factories.initial [.remove .sse_SseBinary (.int 33), .registerSse .sse_Logon 33 (some (fresh .sse_Logon)),
      .register .sample_RootPacket (.short 33) none]).map .sse_SseBinary (.int 33) = some (fresh .sse_Logon)
    ∧ FacOp.stores .sse_SseBinary (.int 33) (.register .sample_RootPacket (.short 33) none) = none := ⟨rfl, rfl⟩

/-! ### C39 -/

theorem runFac_rev (F : Factories) (ops : List FacOp) (c : Cls) :
    (runFac F ops).rev c = (ops.reverse.findSome? (FacOp.types c)).or (F.rev c) := by
  induction ops generalizing F with
  | nil => rfl
  | cons op ops ih =>
    simp only [List.reverse_cons, List.findSome?_append]
    cases op with
    | register f' k' s =>
      rw [runFac, ih]
      simp only [List.findSome?_cons, FacOp.types, List.findSome?_nil, Option.or_none]
      rfl
    | registerSse c' t s =>
      rw [runFac, ih]
      simp only [List.findSome?_cons, FacOp.types, List.findSome?_nil, Factories.registerSse, Factories.put]
      by_cases h : c' = c
      · rw [if_pos h, if_pos h.symm]
        cases List.findSome? (FacOp.types c) ops.reverse <;> rfl
      · rw [if_neg h, if_neg fun h' => h h'.symm]
        cases List.findSome? (FacOp.types c) ops.reverse <;> rfl
    | remove f' k' =>
      rw [runFac, ih]
      simp only [List.findSome?_cons, FacOp.types, List.findSome?_nil, Option.or_none]
      rfl

/-- **C39.** After any history, `getMsgType(c)` is the type registered last for class `c`, whatever was removed. -/
theorem C39_last_type (F : Factories) (ops : List FacOp) (c : Cls) :
    (runFac F ops).getMsgType c = match ops.reverse.findSome? (FacOp.types c) with
      | some t => some t
      | none => F.getMsgType c := by
  simp only [Factories.getMsgType, runFac_rev]
  cases ops.reverse.findSome? (FacOp.types c) <;> rfl

/-- Entries of a history of registrations with different keys. -/
theorem findSome_mem {α κ β : Type} [DecidableEq κ] (key : α → κ) (val : α → β) (l : List α) (h : (l.map key).Nodup) (k : κ) (v : β) :
    l.reverse.findSome? (fun r => if key r = k then some (val r) else none) = some v ↔ ∃ r ∈ l, key r = k ∧ val r = v := by
  induction l with
  | nil => simp
  | cons a l ih =>
    simp only [List.map_cons, List.nodup_cons] at h
    simp only [List.reverse_cons, List.findSome?_append, List.findSome?_cons, List.findSome?_nil, List.mem_cons]
    by_cases hk : key a = k
    · have hn : l.reverse.findSome? (fun r => if key r = k then some (val r) else none) = none := by
        rw [List.findSome?_eq_none_iff]
        intro x hx
        rw [if_neg]
        intro hxk
        exact h.1 (List.mem_map.mpr ⟨x, by simpa using hx, by rw [hxk, hk]⟩)
      rw [hn, if_pos hk]
      simp only [Option.none_or]
      constructor
      · intro he
        exact ⟨a, .inl rfl, hk, Option.some.inj he⟩
      · rintro ⟨r, rfl | hr, h1, h2⟩
        · rw [h2]
        · exact absurd (List.mem_map.mpr ⟨r, hr, by rw [h1, hk]⟩) h.1
    · rw [if_neg hk]
      simp only [Option.or_none]
      rw [ih h.2]
      constructor
      · rintro ⟨r, hr, h1, h2⟩
        exact ⟨r, .inr hr, h1, h2⟩
      · rintro ⟨r, rfl | hr, h1, h2⟩
        · exact absurd h1 hk
        · exact ⟨r, hr, h1, h2⟩

/-- The static initialisers as histories. -/
theorem foldl_sse (l : List (Cls × SseMessageType × Cls)) (F : Factories) :
    l.foldl (fun F r => F.registerSse r.1 r.2.1.getValue (some (fresh r.2.2))) F =
      runFac F (l.map fun r => .registerSse r.1 r.2.1.getValue (some (fresh r.2.2))) := by
  induction l generalizing F with
  | nil => rfl
  | cons r l ih => simp only [List.foldl_cons, List.map_cons, runFac, ih]

theorem foldl_regs (l : List Reg) (F : Factories) :
    l.foldl (fun F r => if r.fac = .sse_SseBinary then F else F.put r.fac r.key (some (fresh r.cls))) F =
      runFac F ((l.filter fun r => r.fac ≠ .sse_SseBinary).map fun r => .register r.fac r.key (some (fresh r.cls))) := by
  induction l generalizing F with
  | nil => rfl
  | cons r l ih =>
    simp only [List.foldl_cons, List.filter_cons]
    by_cases h : r.fac = .sse_SseBinary
    · rw [if_pos h, ih]; simp [h]
    · rw [if_neg h, ih]; simp [h, runFac, Factories.register]

theorem initial_run : Factories.initial = runFac .empty
    (((defaultRegs.filter fun r => r.fac ≠ .sse_SseBinary).map fun r => .register r.fac r.key (some (fresh r.cls)))
      ++ sseDefaultRegs.map fun r => .registerSse r.1 r.2.1.getValue (some (fresh r.2.2))) := by
  rw [runFac_append, ← foldl_regs, ← foldl_sse]
  rfl

theorem regs_nodup : (defaultRegs.map fun r => (r.fac, r.key)).Nodup := by decide +kernel

theorem sse_nodup : (sseDefaultRegs.map fun r => r.2.1.getValue).Nodup ∧ (sseDefaultRegs.map fun r => r.1).Nodup := by decide +kernel

theorem sse_regs_agree : (defaultRegs.filter fun r => r.fac = .sse_SseBinary).map (fun r => (r.key, r.cls)) =
    sseDefaultRegs.map (fun r => (.int r.2.1.getValue, r.2.2)) := by decide +kernel

theorem sse_class_literals : ∀ r ∈ sseDefaultRegs, r.1 = r.2.2 := by decide +kernel

theorem fresh_inj (a b : Cls) (h : fresh a = fresh b) : a = b := (Val.obj.inj h).1

/-- In a freshly started process the factories hold exactly the default registrations, each giving a new object of its class. -/
theorem default_create (f : Fac) (k : Key) (v : Val) :
    Factories.initial.create f k = .ok v ↔ ∃ r ∈ defaultRegs, r.fac = f ∧ r.key = k ∧ v = fresh r.cls := by
  have hcr : Factories.initial.create f k = .ok v ↔ Factories.initial.map f k = some v := by
    simp only [Factories.create]
    cases Factories.initial.map f k <;> simp
  rw [hcr, initial_run, runFac_append, runFac_map]
  by_cases hf : f = .sse_SseBinary
  · subst hf
    have h0 : (runFac .empty ((defaultRegs.filter fun r => r.fac ≠ .sse_SseBinary).map fun r =>
        FacOp.register r.fac r.key (some (fresh r.cls)))).map .sse_SseBinary k = none := by
      rw [runFac_map, lastStored]
      have : (List.map (fun r => FacOp.register r.fac r.key (some (fresh r.cls))) (defaultRegs.filter fun r => r.fac ≠ .sse_SseBinary)).reverse.findSome?
          (FacOp.stores .sse_SseBinary k) = none := by
        rw [List.findSome?_eq_none_iff]
        intro x hx
        simp only [List.mem_reverse, List.mem_map, List.mem_filter] at hx
        obtain ⟨r, ⟨_, hr⟩, rfl⟩ := hx
        simp only [FacOp.stores]
        rw [if_neg]
        rintro ⟨h, _⟩
        simp [h] at hr
      rw [this]; rfl
    rw [h0, lastStored]
    have hs : ∀ o : Option (Option Val), o.getD none = some v ↔ o = some (some v) := by
      intro o; cases o <;> simp
    rw [hs, ← List.map_reverse, List.findSome?_map]
    have he : (FacOp.stores Fac.sse_SseBinary k ∘ fun r : Cls × SseMessageType × Cls => FacOp.registerSse r.1 r.2.1.getValue (some (fresh r.2.2)))
        = fun r => if Key.int r.2.1.getValue = k then some (some (fresh r.2.2)) else none := by
      funext r
      simp only [Function.comp, FacOp.stores, true_and]
      by_cases h : k = .int r.2.1.getValue
      · rw [if_pos h, if_pos h.symm]
      · rw [if_neg h, if_neg fun h' => h h'.symm]
    have hnd : (sseDefaultRegs.map fun r => Key.int r.2.1.getValue).Nodup := by decide +kernel
    rw [he, findSome_mem (fun r : Cls × SseMessageType × Cls => Key.int r.2.1.getValue) (fun r => some (fresh r.2.2)) sseDefaultRegs hnd]
    constructor
    · rintro ⟨r, hr, h1, h2⟩
      have hm : (Key.int r.2.1.getValue, r.2.2) ∈ sseDefaultRegs.map (fun r => (Key.int r.2.1.getValue, r.2.2)) :=
        List.mem_map.mpr ⟨r, hr, rfl⟩
      rw [← sse_regs_agree] at hm
      obtain ⟨q, hq, hqe⟩ := List.mem_map.mp hm
      simp only [List.mem_filter, decide_eq_true_eq] at hq
      simp only [Prod.mk.injEq] at hqe
      exact ⟨q, hq.1, hq.2, by rw [hqe.1, h1], by rw [hqe.2]; exact (Option.some.inj h2).symm⟩
    · rintro ⟨q, hq, h1, h2, rfl⟩
      have hm : (q.key, q.cls) ∈ (defaultRegs.filter fun r => r.fac = .sse_SseBinary).map (fun r => (r.key, r.cls)) :=
        List.mem_map.mpr ⟨q, List.mem_filter.mpr ⟨hq, by simpa using h1⟩, rfl⟩
      rw [sse_regs_agree] at hm
      obtain ⟨r, hr, hre⟩ := List.mem_map.mp hm
      simp only [Prod.mk.injEq] at hre
      exact ⟨r, hr, by rw [hre.1, h2], by rw [hre.2]⟩
  · have h1 : (sseDefaultRegs.map fun r => FacOp.registerSse r.1 r.2.1.getValue (some (fresh r.2.2))).reverse.findSome? (FacOp.stores f k) = none := by
      rw [List.findSome?_eq_none_iff]
      intro x hx
      simp only [List.mem_reverse, List.mem_map] at hx
      obtain ⟨r, _, rfl⟩ := hx
      simp only [FacOp.stores]
      rw [if_neg]
      rintro ⟨h, _⟩
      exact hf h
    rw [lastStored, h1, Option.getD_none, runFac_map, lastStored]
    have hs : ∀ o : Option (Option Val), o.getD none = some v ↔ o = some (some v) := by
      intro o; cases o <;> simp
    show Option.getD _ none = some v ↔ _
    rw [hs, ← List.map_reverse, List.findSome?_map]
    have he : (FacOp.stores f k ∘ fun r : Reg => FacOp.register r.fac r.key (some (fresh r.cls)))
        = fun r => if (r.fac, r.key) = (f, k) then some (some (fresh r.cls)) else none := by
      funext r
      simp only [Function.comp, FacOp.stores, Prod.mk.injEq]
    have hnd : ((defaultRegs.filter fun r => r.fac ≠ .sse_SseBinary).map fun r => (r.fac, r.key)).Nodup :=
      regs_nodup.sublist (List.Sublist.map _ List.filter_sublist)
    rw [he, findSome_mem (fun r : Reg => (r.fac, r.key)) (fun r => some (fresh r.cls)) _ hnd]
    simp only [List.mem_filter, Prod.mk.injEq]
    constructor
    · rintro ⟨r, ⟨hr, _⟩, ⟨h1, h2⟩, h3⟩
      exact ⟨r, hr, h1, h2, (Option.some.inj h3).symm⟩
    · rintro ⟨r, hr, h1, h2, rfl⟩
      exact ⟨r, ⟨hr, by simpa [h1] using hf⟩, ⟨h1, h2⟩, rfl⟩

/-- **C41.** In a freshly started process `create(key)` succeeds exactly for the specified message types and application identifiers of the
factory, and gives a new object of the class announced. -/
theorem C41_default_create (f : Fac) (k : Key) (v : Val) :
    Factories.initial.create f k = .ok v
      ↔ ∃ c : Cls, (k, (decl c).name) ∈ messageTypes f ∧ c.mod = f.protocol ∧ v = fresh c := by
  rw [default_create]
  constructor
  · rintro ⟨r, hr, h1, h2, h3⟩
    have := (regs_iff f k r.cls).mp ⟨r, hr, h1, h2, rfl⟩
    exact ⟨r.cls, this.1, this.2, h3⟩
  · rintro ⟨c, h1, h2, h3⟩
    obtain ⟨r, hr, e1, e2, e3⟩ := (regs_iff f k c).mpr ⟨h1, h2⟩
    exact ⟨r, hr, e1, e2, by rw [e3]; exact h3⟩

/-- **C41.** No key is listed twice, so the class is determined by the key; and no key is registered twice in the same factory. -/
theorem C41_keys_distinct : (∀ f, ((messageTypes f).map (·.1)).Nodup) ∧ (defaultRegs.map fun r => (r.fac, r.key)).Nodup := by
  refine ⟨fun f => ?_, regs_nodup⟩
  cases f <;> decide +kernel

/-- All other keys are refused. -/
theorem C41_unknown (f : Fac) (k : Key) (h : ∀ name, (k, name) ∉ messageTypes f) : Factories.initial.create f k = .error .illegalArgument := by
  simp only [Factories.create]
  cases hm : Factories.initial.map f k with
  | none => rfl
  | some v =>
    exfalso
    have : Factories.initial.create f k = .ok v := by simp only [Factories.create, hm]
    obtain ⟨c, h1, _⟩ := (C41_default_create f k v).mp this
    exact h _ h1

example : (Factories.initial.create .szse_SzseBinary (.int 204715)) = .error .illegalArgument :=
  C41_unknown _ _ (by
    intro name h
    have : Key.int 204715 ∈ (messageTypes .szse_SzseBinary).map (·.1) := List.mem_map_of_mem (f := Prod.fst) h
    revert this
    decide +kernel)

/-- **C39.** In a freshly started process `getMsgType(c) = t` exactly when `create(t)` gives a new object of class `c`. -/
theorem C39_default_inverse (c : Cls) (t : BitVec 32) :
    Factories.initial.getMsgType c = some t ↔ Factories.initial.create .sse_SseBinary (.int t) = .ok (fresh c) := by
  rw [default_create]
  have h : Factories.initial.getMsgType c = some t ↔ ∃ r ∈ sseDefaultRegs, r.1 = c ∧ r.2.1.getValue = t := by
    rw [initial_run, runFac_append, C39_last_type]
    have h0 : (runFac .empty ((defaultRegs.filter fun r => r.fac ≠ .sse_SseBinary).map fun r =>
        FacOp.register r.fac r.key (some (fresh r.cls)))).getMsgType c = none := by
      rw [C39_last_type]
      have : (List.map (fun r => FacOp.register r.fac r.key (some (fresh r.cls))) (defaultRegs.filter fun r => r.fac ≠ .sse_SseBinary)).reverse.findSome?
          (FacOp.types c) = none := by
        rw [List.findSome?_eq_none_iff]
        intro x hx
        simp only [List.mem_reverse, List.mem_map] at hx
        obtain ⟨r, _, rfl⟩ := hx
        rfl
      rw [this]; rfl
    rw [h0]
    have hs : ∀ o : Option (BitVec 32), (match o with | some t => some t | none => none) = some t ↔ o = some t := by
      intro o; cases o <;> simp
    rw [hs, ← List.map_reverse, List.findSome?_map]
    exact findSome_mem (fun r : Cls × SseMessageType × Cls => r.1) (fun r => r.2.1.getValue) sseDefaultRegs sse_nodup.2 c t
  rw [h]
  constructor
  · rintro ⟨r, hr, rfl, rfl⟩
    have hm : (Key.int r.2.1.getValue, r.2.2) ∈ sseDefaultRegs.map (fun r => (Key.int r.2.1.getValue, r.2.2)) :=
      List.mem_map.mpr ⟨r, hr, rfl⟩
    rw [← sse_regs_agree] at hm
    obtain ⟨q, hq, hqe⟩ := List.mem_map.mp hm
    simp only [List.mem_filter, decide_eq_true_eq] at hq
    simp only [Prod.mk.injEq] at hqe
    exact ⟨q, hq.1, hq.2, hqe.1, by rw [hqe.2, sse_class_literals r hr]⟩
  · rintro ⟨q, hq, h1, h2, h3⟩
    have hm : (q.key, q.cls) ∈ (defaultRegs.filter fun r => r.fac = .sse_SseBinary).map (fun r => (r.key, r.cls)) :=
      List.mem_map.mpr ⟨q, List.mem_filter.mpr ⟨hq, by simpa using h1⟩, rfl⟩
    rw [sse_regs_agree] at hm
    obtain ⟨r, hr, hre⟩ := List.mem_map.mp hm
    simp only [Prod.mk.injEq] at hre
    have hk := hre.1.trans h2
    cases hk
    exact ⟨r, hr, by rw [sse_class_literals r hr, hre.2, ← fresh_inj _ _ h3], rfl⟩

example : Factories.initial.getMsgType .sse_ExecRptInfo = some 208 := by decide +kernel

/-- **C39.** `remove` does not undo `getMsgType`: in any state, after `remove(t)` the answer for every class is the old one, although `create(t)` throws. -/
theorem C39_stale_after_remove (F : Factories) (c : Cls) (t : BitVec 32) (h : F.getMsgType c = some t) :
    (F.remove .sse_SseBinary (.int t)).1.getMsgType c = some t
      ∧ (F.remove .sse_SseBinary (.int t)).1.create .sse_SseBinary (.int t) = .error .illegalArgument := by
  refine ⟨h, ?_⟩
  simp [Factories.remove, Factories.create]

/-! ### C40 -/

/-- **C40.** `fromValue(v)` is the constant with value `v`. -/
theorem C40_fromValue (v : BitVec 32) (m : SseMessageType) : SseMessageType.fromValue v = .ok m ↔ m.getValue = v := by
  have h1 : ∀ m : SseMessageType, SseMessageType.fromValue m.getValue = .ok m := by
    intro m; cases m <;> rfl
  have h2 : ∀ p ∈ sseMessageTypes, p.1.getValue = p.2 := by decide +kernel
  constructor
  · intro h
    unfold SseMessageType.fromValue at h
    split at h
    · rename_i p hp
      have hm := List.mem_of_find?_eq_some hp
      have hv := List.find?_some hp
      simp only [decide_eq_true_eq] at hv
      cases h
      rw [h2 p hm, hv]
    · cases h
  · rintro rfl; exact h1 m

/-- **C40.** The values are pairwise different. -/
theorem C40_injective (a b : SseMessageType) (h : a.getValue = b.getValue) : a = b := by
  have h1 := (C40_fromValue b.getValue a).mpr h
  have h2 := (C40_fromValue b.getValue b).mpr rfl
  rw [h1] at h2
  cases h2; rfl

/-- **C40.** Every other int is rejected. -/
theorem C40_unknown (v : BitVec 32) : SseMessageType.fromValue v = .error .illegalArgument ↔ ∀ m : SseMessageType, m.getValue ≠ v := by
  constructor
  · intro h m hm
    rw [(C40_fromValue v m).mpr hm] at h
    cases h
  · intro h
    cases hf : SseMessageType.fromValue v with
    | ok m => exact absurd ((C40_fromValue v m).mp hf) (h m)
    | error e =>
      unfold SseMessageType.fromValue at hf
      split at hf
      · cases hf
      · cases hf; rfl

example : SseMessageType.EXEC_RPT_INFO.getValue = 208 ∧ SseMessageType.fromValue 34 = .error .illegalArgument := ⟨rfl, rfl⟩

/-! ### C41: frames with a default type -/

/-- A message is canonical when each of its fields is. -/
theorem canonicalFields_of (w : World) (k : Conv) (all : List Val) (ts : List WTy) (vs : List Val)
    (h : ∀ (j : Nat) (t : WTy) (v : Val), ts[j]? = some t → vs[j]? = some v → canonicalField w k all t v) : canonicalFields w k all ts vs := by
  induction vs generalizing ts with
  | nil => simp only [canonicalFields]
  | cons v vs ih =>
    cases ts with
    | nil => simp only [canonicalFields]
    | cons t ts =>
      simp only [canonicalFields]
      exact ⟨h 0 t v rfl rfl, ih ts fun j t' v' h1 h2 => h (j + 1) t' v' h1 h2⟩

/-- **C41.** Take any specified message type or application identifier `k` of a factory, announcing class `c'`, and any message whose polymorphic part (field `i`) is governed by that factory: if the key field
holds `k`, the part is a canonical object of class `c'` and the other fields are canonical, then the message is canonical in a
freshly started process … -/
theorem C41_canonical (f : Fac) (k : Key) (c' : Cls) (hreg : (k, (decl c').name) ∈ messageTypes f) (hmod : c'.mod = f.protocol)
    (c : Cls) (fs bs : List Val) (i key : Nat) (kv : Val)
    (hi : (wire c)[i]? = some (.ext f key)) (hkey : fs[key]? = some kv) (hk : keyOf kv = k)
    (hbody : fs[i]? = some (.obj c' bs)) (hcan : canonical World.initial (.obj c' bs))
    (hrest : ∀ (j : Nat) (t : WTy) (v : Val), j ≠ i → (wire c)[j]? = some t → fs[j]? = some v →
      canonicalField World.initial (conv c.mod) fs t v) :
    canonical World.initial (.obj c fs) := by
  simp only [canonical]
  refine canonicalFields_of _ _ _ _ _ fun j t v h1 h2 => ?_
  by_cases hj : j = i
  · subst hj
    rw [hi] at h1
    rw [hbody] at h2
    cases h1
    cases h2
    have hc := (C41_default_create f k (fresh c')).mpr ⟨c', hreg, hmod, rfl⟩
    have hm : World.initial.fac f k = some (fresh c') := by
      have : World.initial.fac f k = Factories.initial.map f k := rfl
      rw [this]
      simp only [Factories.create] at hc
      cases h : Factories.initial.map f k with
      | none => rw [h] at hc; cases hc
      | some x => rw [h] at hc; cases hc; rfl
    simp only [canonicalField]
    exact ⟨⟨kv, hkey, by rw [hk, hm]⟩, hcan⟩
  · exact hrest j t v hj h1 h2

/-- … **C41.** and so it round-trips. -/
theorem C41_round_trip (f : Fac) (k : Key) (c' : Cls) (hreg : (k, (decl c').name) ∈ messageTypes f) (hmod : c'.mod = f.protocol)
    (c : Cls) (fs bs : List Val) (i key : Nat) (kv : Val)
    (hi : (wire c)[i]? = some (.ext f key)) (hkey : fs[key]? = some kv) (hk : keyOf kv = k)
    (hbody : fs[i]? = some (.obj c' bs)) (hcan : canonical World.initial (.obj c' bs))
    (hrest : ∀ (j : Nat) (t : WTy) (v : Val), j ≠ i → (wire c)[j]? = some t → fs[j]? = some v →
      canonicalField World.initial (conv c.mod) fs t v)
    (ws : World) (n m : Nat) (b : WBuf) (hv : wellTyped (.obj c fs) = true) (hb : b.Valid)
    (hok : (encode ws n (.obj c fs) b).2.2 = none) (hm : depth (.obj c fs) ≤ m) :
    ∃ bytes fs', (encode ws n (.obj c fs) b).2.1.data = b.data ++ bytes
      ∧ (encode ws n (.obj c fs) b).1 = .obj c fs'
      ∧ ∀ before after spare, decode World.initial m c (freshFields c) ⟨before ++ bytes ++ after, spare, before.length⟩ =
          (fs', ⟨before ++ bytes ++ after, spare, before.length + bytes.length⟩, none) :=
  C23_round_trip ws World.initial n m c fs b hv hb hok
    (C41_canonical f k c' hreg hmod c fs bs i key kv hi hkey hk hbody hcan hrest) hm

/-- Every default registration is for a factory that some message uses. -/
theorem C41_used : ∀ r ∈ defaultRegs, ∃ c ∈ allCls, ∃ i key : Nat, (wire c)[i]? = some (WTy.ext r.fac key) := by
  have h : (allFac.all fun f => allCls.any fun c => (wire c).any fun t => match t with | .ext f' _ => decide (f' = f) | _ => false) = true := by
    decide +kernel
  intro r _
  rw [List.all_eq_true] at h
  have h1 := h r.fac (by cases r.fac <;> decide)
  rw [List.any_eq_true] at h1
  obtain ⟨c, hc, h2⟩ := h1
  rw [List.any_eq_true] at h2
  obtain ⟨t, ht, h3⟩ := h2
  obtain ⟨i, hi⟩ := List.getElem?_of_mem ht
  cases t with
  | ext f' key =>
    simp only [decide_eq_true_eq] at h3
    exact ⟨c, hc, i, key, by rw [hi, h3]⟩
  | _ => simp at h3

/-- The message of `exCanonical` is such a message. -/
example : (.int 206, (decl .sse_ExecRptSync).name) ∈ messageTypes .sse_SseBinary ∧ (wire .sse_SseBinary)[3]? = some (.ext .sse_SseBinary 0)
    ∧ keyOf (.num ⟨.i32, 206⟩) = .int 206 := by
  refine ⟨?_, rfl, rfl⟩
  decide +kernel

/-- The theorems on the body of a frame. -/
example := C39_stale_after_remove Factories.initial .sse_ExecRptInfo 208 (by decide +kernel)
example := C40_injective .EXEC_RPT_INFO (.EXEC_RPT_INFO) rfl

end FinProto
