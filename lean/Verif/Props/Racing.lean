import Verif.Proofs.Racing
import Verif.Model.Factory
import Verif.Model.Checksum
/-
C103: other threads call the setters of a message while it is being encoded.
-/
namespace FinProto

/-- **C103.** While a thread encodes a message, other threads call setters of it, whenever and as often as they like, but not of its lists and computed
fields.  Then the call writes and throws exactly what it would, alone, with a mixture: the message with each field as it was at some moment during
the call.  Fields further back are from later moments.  If nothing is thrown, each field has a moment of its own, later than those of the fields in front of
it and not before the first access: what was set until then is never missed.  The only other outcome is a `NullPointerException` after a setter was called
with null during the call. -/
theorem C103_mixture (w : World) (o : Others) (n : Nat) (c : Cls) (fs : List Val) (b : WBuf) (hsp : Spares c o) (hfit : ListsFit fs) :
    let r := rencode w o n c fs b
    (∃ when : Nat → Nat, (∀ f, when f ≤ r.1.k) ∧
        (∀ f g, f < g → g < (wire c).length → ¬ Touchy c f → ¬ Touchy c g → when f ≤ when g) ∧
        (r.2 = none → (∀ f, f < (wire c).length → ¬ Touchy c f → 0 < when f) ∧
          ∀ f g, f < g → g < (wire c).length → ¬ Touchy c f → ¬ Touchy c g → when f < when g) ∧
        (r.1.buf, r.2) = (encode w (n + 1) (.obj c (mixture o fs when)) b).2)
      ∨ (r.2 = some .nullPointer ∧ ∃ k f, k < r.1.k ∧ (f, Val.null) ∈ o k) := by
  intro r
  have hcall : ∀ b, (encode w n .null b).2 = (b, some .nullPointer) := by
    intro b; cases n <;> rfl
  have h0 : (⟨fs, 0, b, fun _ => none⟩ : RSt).Rel (Touchy c) o fs :=
    ⟨rfl, fun _ _ => by rw [fieldsAt_zero], fun f xs _ hx => hfit xs (List.mem_of_getElem? hx)⟩
  have hfine : ∀ s ∈ (decl c).enc, fineStmt (Touchy c) s := fun s hs => fine_of c s (List.all_eq_true.1 (enc_fine c) s hs)
  obtain ⟨-, h | ⟨at_, hb, hp, hst, hm⟩⟩ := rstmts_mix hsp w (encode w n) hcall (decl c).enc hfine (nodup_of _ (enc_uses c)) _ h0
  · exact .inr h
  · have order : ∀ (R : Nat → Nat → Prop), ((decl c).enc.flatMap usesOf).Pairwise (fun f g => R (at_ f) (at_ g)) →
        ∀ f g, f < g → g < (wire c).length → ¬ Touchy c f → ¬ Touchy c g → R (at_ f) (at_ g) := by
      intro R hp f g hfg hg hf1 hg1
      have hsub : (((decl c).enc.flatMap usesOf).filter fun f => !touchyB c f).Pairwise (fun f g => R (at_ f) (at_ g)) :=
        List.Pairwise.sublist List.filter_sublist hp
      rw [enc_order] at hsub
      rw [touchy_iff] at hf1 hg1
      have hmf : [f, g].Sublist ((List.range (wire c).length).filter fun f => !touchyB c f) := by
        have h1 : [f, g].Sublist (List.range (wire c).length) := by
          have hlt : f < (wire c).length := by omega
          rw [show List.range (wire c).length = List.range (f + 1) ++ (List.range ((wire c).length - (f + 1))).map (f + 1 + ·) from by
            rw [← List.range_add]; congr 1; omega]
          refine List.Sublist.append (l₁ := [f]) ?_ ?_
          · exact List.singleton_sublist.2 (List.mem_range.2 (Nat.lt_succ_self f))
          · refine List.singleton_sublist.2 (List.mem_map.2 ⟨g - (f + 1), List.mem_range.2 (by omega), by omega⟩)
        have := h1.filter (fun f => !touchyB c f)
        simpa [hf1, hg1] using this
      have := hsub.sublist hmf
      simpa using this
    refine .inl ⟨at_, fun f => (hb f).2, order (· ≤ ·) hp, ?_, ?_⟩
    · intro hnone
      obtain ⟨hs1, hs2⟩ := hst hnone
      refine ⟨fun f hf hf1 => hs1 f ?_, order (· < ·) hs2⟩
      rw [touchy_iff] at hf1
      have : f ∈ ((decl c).enc.flatMap usesOf).filter fun f => !touchyB c f := by
        rw [enc_order]
        exact List.mem_filter.2 ⟨List.mem_range.2 hf, by simpa using hf1⟩
      exact (List.mem_filter.1 this).1
    · refine (hm ⟨mixture o fs at_, b, fun _ => none⟩ ?_).symm
      have hlen := fieldsAt_length o fs
      have hmix : ∀ f, (mixture o fs at_)[f]? = (fieldsAt o fs (at_ f))[f]? := by
        intro f
        unfold mixture
        by_cases hf : f < fs.length
        · have hx : f < (fieldsAt o fs (at_ f)).length := by rw [hlen]; exact hf
          simp [hf, List.getElem?_eq_getElem hx]
        · have hx : (fieldsAt o fs (at_ f)).length ≤ f := by rw [hlen]; omega
          rw [List.getElem?_eq_none hx, List.getElem?_eq_none (by simpa using Nat.le_of_not_lt hf)]
      refine ⟨rfl, rfl, by simp [mixture], ?_, fun f _ _ => hmix f⟩
      intro f _ hF
      rw [hmix f]
      have : ∀ k, (fieldsAt o fs k)[f]? = fs[f]? := by
        intro k
        induction k with
        | zero => rw [fieldsAt_zero]
        | succ k ih => rw [fieldsAt_succ, setAll_other _ _ (fun p hp e => hsp k p hp (e ▸ hF)), ih]
      exact this _

/-- **C103.** … so without a null during the call the outcome is always that of a mixture. -/
theorem C103_no_null (w : World) (o : Others) (n : Nat) (c : Cls) (fs : List Val) (b : WBuf) (hsp : Spares c o) (hfit : ListsFit fs)
    (hnull : ∀ k, k < (rencode w o n c fs b).1.k → ∀ p ∈ o k, p.2 ≠ .null) :
    ∃ when : Nat → Nat, (∀ f, when f ≤ (rencode w o n c fs b).1.k) ∧
      (∀ f g, f < g → g < (wire c).length → ¬ Touchy c f → ¬ Touchy c g → when f ≤ when g) ∧
      ((rencode w o n c fs b).2 = none → (∀ f, f < (wire c).length → ¬ Touchy c f → 0 < when f) ∧
        ∀ f g, f < g → g < (wire c).length → ¬ Touchy c f → ¬ Touchy c g → when f < when g) ∧
      ((rencode w o n c fs b).1.buf, (rencode w o n c fs b).2) = (encode w (n + 1) (.obj c (mixture o fs when)) b).2 := by
  rcases C103_mixture w o n c fs b hsp hfit with h | ⟨-, k, f, hk, hf⟩
  · exact h
  · exact absurd rfl (hnull k hk _ hf)

/-- **C103.** A message nobody else changes is encoded as alone. -/
theorem C103_quiet (w : World) (n : Nat) (c : Cls) (fs : List Val) (b : WBuf) (hfit : ListsFit fs) :
    ((rencode w (fun _ => []) n c fs b).1.buf, (rencode w (fun _ => []) n c fs b).2) = (encode w (n + 1) (.obj c fs) b).2 := by
  obtain ⟨when, -, -, -, h⟩ := C103_no_null w (fun _ => []) n c fs b (fun k p hp => nomatch hp) hfit (fun k _ p hp => nomatch hp)
  rw [h]
  have hat : ∀ k, fieldsAt (fun _ => []) fs k = fs := by
    intro k
    induction k with
    | zero => rw [fieldsAt_zero]
    | succ k ih => rw [fieldsAt_succ, ih]; rfl
  have : mixture (fun _ => []) fs when = fs := by
    unfold mixture
    apply List.ext_getElem
    · simp
    · intro i h1 h2
      simp [hat, List.getElem?_eq_getElem h2]
  rw [this]

/-- **C103.** If the other threads set one field only, the call writes and throws what it would have with the message as it really was at some moment
during the call. -/
theorem C103_one_field (w : World) (o : Others) (n : Nat) (c : Cls) (fs : List Val) (b : WBuf) (f : Nat) (hf : ¬ Touchy c f)
    (hone : ∀ k, ∀ p ∈ o k, p.1 = f) (hfit : ListsFit fs)
    (hnull : ∀ k, k < (rencode w o n c fs b).1.k → ∀ p ∈ o k, p.2 ≠ .null) :
    ∃ k, k ≤ (rencode w o n c fs b).1.k ∧
      ((rencode w o n c fs b).1.buf, (rencode w o n c fs b).2) = (encode w (n + 1) (.obj c (fieldsAt o fs k)) b).2 := by
  obtain ⟨when, h1, -, -, h⟩ := C103_no_null w o n c fs b (fun k p hp => hone k p hp ▸ hf) hfit hnull
  refine ⟨when f, h1 f, ?_⟩
  rw [h]
  have hlen := fieldsAt_length o fs
  have hother : ∀ g, g ≠ f → ∀ k, (fieldsAt o fs k)[g]? = fs[g]? := by
    intro g hg k
    induction k with
    | zero => rw [fieldsAt_zero]
    | succ k ih => rw [fieldsAt_succ, setAll_other _ _ (fun p hp e => hg (e.symm.trans (hone k p hp))), ih]
  have : mixture o fs when = fieldsAt o fs (when f) := by
    apply List.ext_getElem?
    intro g
    unfold mixture
    by_cases hg : g < fs.length
    · have hx : g < (fieldsAt o fs (when f)).length := by rw [hlen]; exact hg
      have hx' : g < (fieldsAt o fs (when g)).length := by rw [hlen]; exact hg
      by_cases hgf : g = f
      · subst hgf
        simp [hg, List.getElem?_eq_getElem hx]
      · have e1 := hother g hgf (when g)
        have e2 := hother g hgf (when f)
        simp [hg, e1, e2]
    · rw [List.getElem?_eq_none (by simpa using Nat.le_of_not_lt hg), List.getElem?_eq_none (by rw [hlen]; omega)]
  rw [this]

/-- **C103.** No setter is lost: whatever other threads set, lists and computed fields included, and whatever `encode` throws, a field `encode` does not compute
holds afterwards the value set last during the call, or its value from before if none was set. -/
theorem C103_kept (w : World) (o : Others) (n : Nat) (c : Cls) (fs : List Val) (b : WBuf) (f : Nat) (hf : ¬ Computed c f) :
    (rencode w o n c fs b).1.fs[f]? = (fieldsAt o fs (rencode w o n c fs b).1.k)[f]? := by
  have h : Acc o f ⟨fs, 0, b, fun _ => none⟩ (rencode w o n c fs b).1 := by
    refine racc_rstmts w (encode w n) (decl c).enc _ ?_
    intro s hs e
    have := List.all_eq_true.1 (enc_assigns c) s hs
    rw [e] at this
    dsimp only at this
    apply hf
    unfold Computed
    split at this <;> simp_all
  rw [h.2, fieldsAt_get]

/-! ### What does not hold -/

/-- `setUniqueOrderId(null)` between the two accesses of that field. -/
private def nullBetween : Others := fun k => if k = 1 then [(0, .null)] else []

private def exRisk (id : Val) : List Val := [id, .num ⟨.i8, 3⟩, .str [0x6F, 0x6B]]

/-- **C103 violated.** With a null the outcome may be one that no message in use has: the message can be encoded before and after
`setUniqueOrderId(null)`, but the `encode` during which it is called throws a `NullPointerException`. -/
theorem C103_null_violated :
    (rencode World.initial nullBetween 3 .risk_RiskResult (exRisk (.str [0x41])) ⟨[], 0, 100⟩).2 = some .nullPointer
    ∧ (encode World.initial 4 (.obj .risk_RiskResult (exRisk (.str [0x41]))) ⟨[], 0, 100⟩).2.2 = none
    ∧ (encode World.initial 4 (.obj .risk_RiskResult (exRisk .null)) ⟨[], 0, 100⟩).2.2 = none := by
  decide +kernel

/-- Another list is set after the number of elements was written (and the first element). -/
private def listBetween (xs : Val) : Others := fun k => if k = 6 then [(1, xs)] else []

private def exIner (xs : List Val) : List Val := [.num ⟨.i32, 7⟩, .list xs]

private def three : List Val := [.num ⟨.i16, 1⟩, .num ⟨.i16, 2⟩, .num ⟨.i16, 3⟩]

/-- **C103 violated.** With a list set during the call the bytes may be those of no message: the count says three elements, one element follows; or three, but
five follow.  Nothing is thrown.  (Or `encode` throws, if the new list is null.) -/
theorem C103_list_violated :
    (let r := rencode World.initial (listBetween (.list [.num ⟨.i16, 9⟩])) 3 .sample_NestedPacket_InerPacket (exIner three) ⟨[], 0, 100⟩;
      r.1.buf.data = [7, 0, 0, 0, 3, 0, 1, 0] ∧ r.2 = none)
    ∧ (let r := rencode World.initial (listBetween (.list (List.replicate 5 (.num ⟨.i16, 9⟩)))) 3 .sample_NestedPacket_InerPacket (exIner three) ⟨[], 0, 100⟩;
      r.1.buf.data = [7, 0, 0, 0, 3, 0, 1, 0, 9, 0, 9, 0, 9, 0, 9, 0] ∧ r.2 = none)
    ∧ (rencode World.initial (listBetween .null) 3 .sample_NestedPacket_InerPacket (exIner three) ⟨[], 0, 100⟩).2 = some .nullPointer := by
  decide +kernel

/-- `setMsgBodyLen(99)` between the assignment of the length and the access that writes it. -/
private def lengthBetween : Others := fun k => if k = 4 then [(2, .num ⟨.i32, 99⟩)] else []

/-- A heartbeat in an SSE frame. -/
private def exBeat : List Val := [.num ⟨.i32, 33⟩, .num ⟨.i64, 7⟩, .num ⟨.i32, 0⟩, .null, .num ⟨.i32, 0⟩]

/-- **C103 violated.** A frame whose length field is set during the call may be written with a wrong length. -/
theorem C103_length_violated :
    (let r := rencode World.initial lengthBetween 3 .sse_SseBinary exBeat ⟨[], 0, 100⟩;
      r.1.buf.data = [0, 0, 0, 33, 0, 0, 0, 0, 0, 0, 0, 7, 0, 0, 0, 99, 0, 0, 0, 0] ∧ r.2 = none)
    ∧ (encode World.initial 4 (.obj .sse_SseBinary exBeat) ⟨[], 0, 100⟩).2.1.data = [0, 0, 0, 33, 0, 0, 0, 0, 0, 0, 0, 7, 0, 0, 0, 0, 0, 0, 0, 0] := by
  decide +kernel

/-! ### Examples -/

/-- Other threads go from one order to another: the id, then the status, then the reason, while it is being encoded. -/
private def nextOrder : Others := fun k => if k = 0 then [(0, .str [0x42, 0x42])] else if k = 2 then [(1, .num ⟨.i8, 4⟩), (2, .str [0x6E, 0x6F])] else
  if k = 4 then [(2, .str [0x6F])] else []

private theorem nextOrder_spares : Spares .risk_RiskResult nextOrder := by
  intro k p hp
  unfold nextOrder at hp
  have h : p.1 = 0 ∨ p.1 = 1 ∨ p.1 = 2 := by
    split at hp
    · simp only [List.mem_singleton] at hp; subst hp; exact .inl rfl
    · split at hp
      · simp only [List.mem_cons, List.not_mem_nil, or_false] at hp
        rcases hp with rfl | rfl
        · exact .inr (.inl rfl)
        · exact .inr (.inr rfl)
      · split at hp
        · simp only [List.mem_singleton] at hp; subst hp; exact .inr (.inr rfl)
        · cases hp
  rw [touchy_iff]
  rcases h with h | h | h <;> rw [h] <;> decide

private theorem nextOrder_some : ∀ k, ∀ p ∈ nextOrder k, p.2 ≠ .null := by
  intro k p hp
  unfold nextOrder at hp
  split at hp
  · simp only [List.mem_singleton] at hp; subst hp; simp
  · split at hp
    · simp only [List.mem_cons, List.not_mem_nil, or_false] at hp
      rcases hp with rfl | rfl <;> simp
    · split at hp
      · simp only [List.mem_singleton] at hp; subst hp; simp
      · cases hp

private theorem exRisk_fit (id : JStr) : ListsFit (exRisk (.str id)) := by
  intro xs h
  simp [exRisk] at h

/-- `C103_mixture`, `C103_no_null`: the bytes have the new id, the new status, and the third value of the reason. -/
example := C103_mixture World.initial nextOrder 3 .risk_RiskResult (exRisk (.str [0x41])) ⟨[], 0, 100⟩ nextOrder_spares (exRisk_fit _)
example := C103_no_null World.initial nextOrder 3 .risk_RiskResult (exRisk (.str [0x41])) ⟨[], 0, 100⟩ nextOrder_spares (exRisk_fit _) (fun k _ => nextOrder_some k)
example : (rencode World.initial nextOrder 3 .risk_RiskResult (exRisk (.str [0x41])) ⟨[], 0, 100⟩).1.buf.data
    = [0, 0, 0, 2, 0x42, 0x42, 4, 0, 0, 0, 1, 0x6F] := by decide +kernel

/-- `C103_mixture` where the outcome is the exception. -/
example := C103_mixture World.initial nullBetween 3 .risk_RiskResult (exRisk (.str [0x41])) ⟨[], 0, 100⟩
  (by
    intro k p hp
    unfold nullBetween at hp
    split at hp
    · simp only [List.mem_singleton] at hp; subst hp; rw [touchy_iff]; decide
    · cases hp) (exRisk_fit _)

/-- `C103_quiet`. -/
example := C103_quiet World.initial 3 .sample_NestedPacket_InerPacket (exIner three) ⟨[], 0, 100⟩
  (by intro xs h; simp [exIner, three] at h; subst h; decide)

/-- `C103_kept`: setters of a list and of a computed field. -/
example := C103_kept World.initial (listBetween .null) 3 .sample_NestedPacket_InerPacket (exIner three) ⟨[], 0, 100⟩ 1 id
example := C103_kept World.initial lengthBetween 3 .sse_SseBinary exBeat ⟨[], 0, 100⟩ 0 id

/-- Only the status is set, twice. -/
private def status : Others := fun k => if k = 1 then [(1, .num ⟨.i8, 4⟩)] else if k = 2 then [(1, .num ⟨.i8, 5⟩)] else []

private theorem status_one : ∀ k, ∀ p ∈ status k, p.1 = 1 ∧ p.2 ≠ .null := by
  intro k p hp
  unfold status at hp
  split at hp
  · simp only [List.mem_singleton] at hp; subst hp; simp
  · split at hp
    · simp only [List.mem_singleton] at hp; subst hp; simp
    · cases hp

/-- `C103_one_field`. -/
example := C103_one_field World.initial status 3 .risk_RiskResult (exRisk (.str [0x41])) ⟨[], 0, 100⟩ 1 (by rw [touchy_iff]; decide)
  (fun k p hp => (status_one k p hp).1) (exRisk_fit _) (fun k _ p hp => (status_one k p hp).2)
example : (rencode World.initial status 3 .risk_RiskResult (exRisk (.str [0x41])) ⟨[], 0, 100⟩).1.buf.data
    = [0, 0, 0, 1, 0x41, 5, 0, 0, 0, 2, 0x6F, 0x6B] := by decide +kernel

end FinProto
