import Verif.Props.DecodeErrors
import Verif.Proofs.History
import Verif.Model.Factory
/-
C78: whatever an application does, `encode`, `decode`, `equals` and `hashCode` never meet a value of a wrong type.

`Proc.run` (`Model/History.lean`): operations of the application and steps of its threads in any order; `Legal` (`Spec/History.lean`): what the Java
compiler accepts; `TypedHeap`, `EncThrows`, `DecThrows` (`Spec/TypedHeap.lean`).
-/
namespace FinProto

/-- **C78.** After every legal history (any objects, shared or cyclic, any number of threads, setters and list operations while calls are in progress,
services and suppliers registered at any time), every field has a value of its declared type, and a call of `encode` in progress or ended
has thrown nothing but IndexOutOfBoundsException, NullPointerException or StackOverflowError, a call of `decode` nothing but these
and IllegalArgumentException. -/
theorem C78_history (w : World) (hw : TypedSuppliers w) (n : Nat) (ops : List Op) (hl : Legal n (.start w) ops) :
    let end_ := (Proc.start w).run n ops
    TypedHeap end_.h ∧ ∀ i, (end_.thr i).throwsOk := by
  have h0 : ProcOk (.start w) := ⟨typed_empty, typed_suppliers hw _, fun i => ⟨by simp, .inl rfl⟩⟩
  have := (proc_run n ops _ h0 hl).1
  exact ⟨this.heap, fun i => (this.thr i).throws⟩

/-- **C78.** Objects never change their class: what was a message of class `c` at some point of the history still is at its end. -/
theorem C78_classes (w : World) (hw : TypedSuppliers w) (n : Nat) (ops ops' : List Op) (hl : Legal n (.start w) (ops ++ ops')) (r : Nat) (c : Cls)
    (ys : List HVal) (hr : ((Proc.start w).run n ops).h[r]? = some (.msg c ys)) :
    ∃ ys', ((Proc.start w).run n (ops ++ ops')).h[r]? = some (.msg c ys') := by
  have h0 : ProcOk (.start w) := ⟨typed_empty, typed_suppliers hw _, fun i => ⟨by simp, .inl rfl⟩⟩
  have split : ∀ (xs : List Op) (p : Proc), Legal n p (xs ++ ops') → Legal n p xs ∧ Legal n (p.run n xs) ops' := by
    intro xs
    induction xs with
    | nil => intro p h; exact ⟨trivial, h⟩
    | cons x xs ih => intro p h; exact ⟨⟨h.1, (ih _ h.2).1⟩, (ih _ h.2).2⟩
  obtain ⟨h1, h2⟩ := split ops _ hl
  have hmid := (proc_run n ops _ h0 h1).1
  have : (Proc.start w).run n (ops ++ ops') = ((Proc.start w).run n ops).run n ops' := by simp [Proc.run]
  rw [this]
  exact (proc_run n ops' _ hmid h2).2 r c ys hr

/-- **C78.** One call of `encode`, on any object of a typed heap: the heap is typed afterwards, and nothing but the documented exceptions is thrown. -/
theorem C78_encode (w : World) (n : Nat) (h : Heap) (hh : TypedHeap h) (x : HVal) (hx : ValOf h .codec x) (b : WBuf) :
    TypedHeap (hencode w n x h b).1 ∧ EncThrows (hencode w n x h b).2.2 := by
  obtain ⟨K, hK⟩ := go_hencode w n x h b
  obtain ⟨h1, h2, -⟩ := hgo_ok w n K h _ hh (henter_ok n hx (t := ⟨[], b, none⟩) ⟨by simp, .inl rfl⟩)
  have := (hK K).2 ((hK K).1 (Nat.le_refl K))
  rw [← this]
  exact ⟨h1, h2.err⟩

/-- **C78.** One call of `decode`, into any message of a typed heap, with any suppliers that return messages or null. -/
theorem C78_decode (sup : Suppliers) (n : Nat) (h : Heap) (hh : TypedHeap h) (hs : TypedSups h sup) (r : Nat) (c : Cls) (ys : List HVal)
    (hr : h[r]? = some (.msg c ys)) (b : RBuf) :
    TypedHeap (hdecode sup n r h b).1 ∧ DecThrows (hdecode sup n r h b).2.2 := by
  obtain ⟨K, hK⟩ := go_hdecode sup n r h b
  obtain ⟨h1, h2, -⟩ := dgo_ok n K h _ hh hs (denter_ok n hr (t := ⟨[], b, none⟩) ⟨by simp, .inl rfl⟩)
  have := (hK K).2 ((hK K).1 (Nat.le_refl K))
  rw [← this]
  exact ⟨h1, h2.err⟩

/-- **C78.** `equals` and `hashCode` on any objects of a typed heap give a result or throw StackOverflowError. -/
theorem C78_objects (h : Heap) (hh : TypedHeap h) (n : Nat) (x y : HVal) (hx : ValOf h .codec x) (hy : ValOf h .codec y) :
    (hequals h n x y = .error .stackOverflow ∨ ∃ e, hequals h n x y = .ok e)
      ∧ (hhash h n x = .error .stackOverflow ∨ ∃ k, hhash h n x = .ok k) := by
  have h1 := hequals_ok hh n x y (.inl ⟨_, hx⟩) (.inl ⟨_, hy⟩)
  have h2 := hhash_ok hh n x (.inl ⟨_, hx⟩)
  constructor
  · revert h1
    rcases hequals h n x y with e | e <;> intro h1
    · exact .inl (congrArg _ h1)
    · exact .inr ⟨e, rfl⟩
  · revert h2
    rcases hhash h n x with e | e <;> intro h2
    · exact .inl (congrArg _ h2)
    · exact .inr ⟨e, rfl⟩

/-! ### Cases -/

/-- The lists that are held, with the type of the field. -/
def heldIn (h : Heap) : List (Nat × ElTy) :=
  h.flatMap fun o => match o with
    | .msg c ys => ((javaTypes c).zip ys).filterMap fun p => match p with | (.list e, .ref a) => some (a, e) | _ => none
    | .arr _ => []

theorem Holds.mem {h : Heap} {a : Nat} {e : ElTy} (hh : Holds h a e) : (a, e) ∈ heldIn h := by
  obtain ⟨r, c, ys, f, h1, h2, h3⟩ := hh
  refine List.mem_flatMap.mpr ⟨_, List.mem_of_getElem? h1, List.mem_filterMap.mpr ⟨(.list e, .ref a), ?_, rfl⟩⟩
  refine List.mem_of_getElem? (i := f) ?_
  rw [List.getElem?_zip_eq_some]
  exact ⟨h2, h3⟩

def short (k : Nat) : HVal := .num ⟨.i16, BitVec.ofNat 16 k⟩

/-- A packet with a list of two numbers, and a thread that encodes it and has written the number of elements. -/
def begun : List Op :=
  [.new .sample_SubPacket, .newList, .put 1 [short 5, short 6], .set 0 1 (.ref 1), .call 0 (.enc (.ref 0) ⟨[], 0, 100⟩), .step 0, .step 0]

theorem begun_legal (rest : List Op) (h : Legal 9 ((Proc.start World.initial).run 9 begun) rest) : Legal 9 (.start World.initial) (begun ++ rest) := by
  have hno : ∀ (h : Heap) (a : Nat) (e : ElTy), heldIn h = [] → ¬ Holds h a e := fun h a e h1 h2 => by have := h2.mem; rw [h1] at this; cases this
  refine ⟨trivial, trivial, ⟨⟨_, rfl⟩, fun e he => absurd he (hno _ _ _ (by decide +kernel))⟩, ⟨_, _, .list (.prim .i16), rfl, rfl, .list rfl ?_, ?_⟩,
    ⟨.inr rfl, .codec rfl⟩, trivial, trivial, h⟩
  · intro x hx
    rcases List.mem_cons.mp hx with rfl | hx
    · exact .num rfl
    · rw [List.mem_singleton.mp hx]; exact .num rfl
  · intro e a _ ha e' he'
    exact absurd he' (hno _ _ _ (by decide +kernel))

/-- What a thread that encodes has written, and its exception, when it has ended. -/
def written : Worker → Option (List Byte × Option JErr)
  | .enc t => if t.stack.isEmpty || t.err.isSome then some (t.buf.data, t.err) else none
  | .dec _ => none

/-- The application sets the field to null while the list is being written: NullPointerException. -/
example : Legal 9 (.start World.initial) (begun ++ [.step 0, .set 0 1 .null, .step 0])
    ∧ written (((Proc.start World.initial).run 9 (begun ++ [.step 0, .set 0 1 .null, .step 0])).thr 0) = some ([0, 0, 0, 0, 2, 0, 5, 0], some .nullPointer) := by
  refine ⟨begun_legal _ ⟨trivial, ⟨_, _, .list (.prim .i16), rfl, rfl, .null (by simp), fun e a _ ha => by simp at ha⟩, trivial, trivial⟩, by decide +kernel⟩

/-- **C78: messages must not be changed while they are encoded.** Nothing detects it: the application removes an element from the list while the thread
writes it; the call returns normally, with bytes that announce two elements and have one. -/
theorem C78_changed_during_encode_violated :
    let ops := begun ++ [.put 1 [short 5], .step 0, .step 0, .step 0]
    Legal 9 (.start World.initial) ops
      ∧ written (((Proc.start World.initial).run 9 ops).thr 0) = some ([0, 0, 0, 0, 2, 0, 5, 0], none) := by
  refine ⟨begun_legal _ ⟨⟨⟨_, rfl⟩, fun e he x hx => ?_⟩, trivial, trivial, trivial, trivial⟩, by decide +kernel⟩
  have hm := he.mem
  have hv : heldIn ((Proc.start World.initial).run 9 begun).h = [(1, .prim .i16)] := by decide +kernel
  rw [hv] at hm
  simp only [List.mem_singleton, Prod.mk.injEq, true_and] at hm
  rw [hm, List.mem_singleton.mp hx]
  exact .num rfl

/-- A frame that is its own body: typed; `encode` and `hashCode` overflow the stack. -/
example : Legal 9 (.start World.initial) [.new .sample_RootPacket, .set 0 2 (.ref 0), .call 0 (.enc (.ref 0) ⟨[], 0, 1000⟩)]
    ∧ (written (((Proc.start World.initial).run 9 ([.new .sample_RootPacket, .set 0 2 (.ref 0), .call 0 (.enc (.ref 0) ⟨[], 0, 1000⟩)]
        ++ List.replicate 60 (.step 0))).thr 0)).map (·.2) = some (some .stackOverflow) := by
  refine ⟨⟨trivial, ⟨_, _, .codec, rfl, rfl, .codec rfl, by simp⟩, ⟨.inr rfl, .codec rfl⟩, trivial⟩, by decide +kernel⟩

/-- The history in which the field is set to null while the list is being written. -/
private theorem nulled_legal : Legal 9 (.start World.initial) (begun ++ [.step 0, .set 0 1 .null, .step 0]) :=
  begun_legal _ ⟨trivial, ⟨_, _, .list (.prim .i16), rfl, rfl, .null (by simp), fun e a _ ha => by simp at ha⟩, trivial, trivial⟩

/-- The theorems on this history, and on a new frame. -/
example := C78_history World.initial C28_default_world.1 9 _ nulled_legal
example := C78_classes World.initial C28_default_world.1 9 _ _ nulled_legal 0 .sample_SubPacket _ rfl
example := C78_encode World.initial 3 ([] ++ [newMsg .sample_RootPacket]) (typed_new typed_empty _) (.ref 0) (.codec rfl) ⟨[], 0, 100⟩
example := C78_decode World.initial.suppliers 3 ([] ++ [newMsg .sample_RootPacket]) (typed_new typed_empty _) (typed_suppliers C28_default_world.1 _) 0 _ _ rfl
  ⟨[0, 3, 1], [], 0⟩
example := C78_objects ([] ++ [newMsg .sample_RootPacket]) (typed_new typed_empty _) 3 (.ref 0) (.ref 0) (.codec rfl) (.codec rfl)

end FinProto
