import Verif.Spec.ConcurrentBitMap
import Verif.Proofs.ConcurrentBitMap
import Verif.Props.BitMap
/-
C99: threads that share a bit map.

`BmSys` (`Model/ConcurrentBitMap.lean`): threads load and store the field in any order of steps.
-/
namespace FinProto

/-- **C99.** As long as only one thread changes a bit map, all threads may ask it: whatever the order of the steps, every `get` answers as if the calls had been
made one after the other in the order in which they returned, and so is the bit map at the end; each thread makes its calls in its order. -/
theorem C99_one_writer {σ : Type} (K : BmClass σ) (s : σ) (prog : Nat → List BmOp) (j : Nat) (hw : OneWriter prog j) (sched : List Nat) :
    let end_ := (BmSys.start s prog).run K sched
    OneByOne K s end_.log ∧ end_.bits = runBm K.set K.clear s (changesIn end_.log) ∧ ∀ i, bmDoneBy i end_.log <+: prog i := by
  have h := soFar_run K (s := s) hw sched
  exact ⟨h.log, h.bits, fun i => ⟨_, h.todo i⟩⟩

/-- **C99, `ByteBitMap`.** … and whatever threads change at the same time, a position keeps its value as long as nobody makes a call that says otherwise: if it is set and
nobody clears it, it stays set; if it is clear and nobody sets it, it stays clear. -/
theorem C99_byte_agree (prog : Nat → List BmOp) (hin : ∀ i c, BmOp.change c ∈ prog i → c.pos < 8) (p : Nat) (hp : p < 8) (b : Bool)
    (hag : ∀ i, BmOp.change (if b then .clear p else .set p) ∉ prog i) (s : BitVec 8) (hs : ByteBitMap.get s (BitVec.ofNat 32 p) = b) (sched : List Nat) :
    let end_ := (BmSys.start s prog).run ByteBitMap.methods sched
    ByteBitMap.get end_.bits (BitVec.ofNat 32 p) = b ∧ ∀ d ∈ end_.log, d.op = .get p → d.answer = some b := by
  refine racing_agree ByteBitMap.methods (fun c => match c with | .set _ => true | .clear _ => false) 8 (fun s c p hp hc => ?_) prog hin p hp b
    (fun i c hc he => ?_) s hs sched
  · cases c with
    | set q => exact ByteBitMap.get_set s q p hc hp
    | clear q => exact ByteBitMap.get_clear s q p hc hp
  · cases c with
    | set q =>
      obtain rfl : q = p := he
      cases b
      · exact absurd hc (hag i)
      · rfl
    | clear q =>
      obtain rfl : q = p := he
      cases b
      · rfl
      · exact absurd hc (hag i)

/-- **C99, `ShortBitMap`.** … and whatever threads change at the same time, a position keeps its value as long as nobody makes a call that says otherwise: if it is set and
nobody clears it, it stays set; if it is clear and nobody sets it, it stays clear. -/
theorem C99_short_agree (prog : Nat → List BmOp) (hin : ∀ i c, BmOp.change c ∈ prog i → c.pos < 16) (p : Nat) (hp : p < 16) (b : Bool)
    (hag : ∀ i, BmOp.change (if b then .clear p else .set p) ∉ prog i) (s : BitVec 16) (hs : ShortBitMap.get s (BitVec.ofNat 32 p) = b) (sched : List Nat) :
    let end_ := (BmSys.start s prog).run ShortBitMap.methods sched
    ShortBitMap.get end_.bits (BitVec.ofNat 32 p) = b ∧ ∀ d ∈ end_.log, d.op = .get p → d.answer = some b := by
  refine racing_agree ShortBitMap.methods (fun c => match c with | .set _ => true | .clear _ => false) 16 (fun s c p hp hc => ?_) prog hin p hp b
    (fun i c hc he => ?_) s hs sched
  · cases c with
    | set q => exact ShortBitMap.get_set s q p hc hp
    | clear q => exact ShortBitMap.get_clear s q p hc hp
  · cases c with
    | set q =>
      obtain rfl : q = p := he
      cases b
      · exact absurd hc (hag i)
      · rfl
    | clear q =>
      obtain rfl : q = p := he
      cases b
      · rfl
      · exact absurd hc (hag i)

/-- **C99, `IntBitMap`** (whose `clear` sets, C18): a position that is set stays set, and one that nobody mentions keeps its value, whatever threads change at the
same time. -/
theorem C99_int_agree (prog : Nat → List BmOp) (hin : ∀ i c, BmOp.change c ∈ prog i → c.pos < 32) (p : Nat) (hp : p < 32) (s : BitVec 32)
    (hs : IntBitMap.get s (BitVec.ofNat 32 p) = true ∨ ∀ i c, BmOp.change c ∈ prog i → c.pos ≠ p) (sched : List Nat) :
    let end_ := (BmSys.start s prog).run IntBitMap.methods sched
    IntBitMap.get end_.bits (BitVec.ofNat 32 p) = IntBitMap.get s (BitVec.ofNat 32 p)
      ∧ ∀ d ∈ end_.log, d.op = .get p → d.answer = some (IntBitMap.get s (BitVec.ofNat 32 p)) := by
  refine racing_agree IntBitMap.methods (fun _ => true) 32 (fun s c p hp hc => ?_) prog hin p hp _ (fun i c hc he => ?_) s rfl sched
  · cases c with
    | set q => exact IntBitMap.get_set s q p hc hp
    | clear q => exact IntBitMap.get_set s q p hc hp
  · rcases hs with hs | hs
    · exact hs.symm
    · exact absurd he (hs i c hc)

/-- **C99, `LongBitMap`** (whose `clear` sets, C18): a position that is set stays set, and one that nobody mentions keeps its value, whatever threads change at the
same time. -/
theorem C99_long_agree (prog : Nat → List BmOp) (hin : ∀ i c, BmOp.change c ∈ prog i → c.pos < 64) (p : Nat) (hp : p < 64) (s : BitVec 64)
    (hs : LongBitMap.get s (BitVec.ofNat 32 p) = true ∨ ∀ i c, BmOp.change c ∈ prog i → c.pos ≠ p) (sched : List Nat) :
    let end_ := (BmSys.start s prog).run LongBitMap.methods sched
    LongBitMap.get end_.bits (BitVec.ofNat 32 p) = LongBitMap.get s (BitVec.ofNat 32 p)
      ∧ ∀ d ∈ end_.log, d.op = .get p → d.answer = some (LongBitMap.get s (BitVec.ofNat 32 p)) := by
  refine racing_agree LongBitMap.methods (fun _ => true) 64 (fun s c p hp hc => ?_) prog hin p hp _ (fun i c hc he => ?_) s rfl sched
  · cases c with
    | set q => exact LongBitMap.get_set s q p hc hp
    | clear q => exact LongBitMap.get_set s q p hc hp
  · rcases hs with hs | hs
    · exact hs.symm
    · exact absurd he (hs i c hc)

/-! ### Cases -/

/-- Thread 0 changes the bit map, thread 1 asks. -/
private def oneWriter : Nat → List BmOp
  | 0 => [.change (.set 3), .change (.set 5), .change (.clear 3)]
  | 1 => [.get 3, .get 5, .get 3]
  | _ => []

private theorem oneWriter_ok : OneWriter oneWriter 0 := by
  intro i c hc
  match i with
  | 0 => rfl
  | 1 => simp [oneWriter] at hc
  | _ + 2 => cases hc

example := C99_one_writer ByteBitMap.methods 0 oneWriter 0 oneWriter_ok [0, 0, 0, 1, 0, 0, 1, 0, 1]

example : ((BmSys.start 0 oneWriter).run ByteBitMap.methods [0, 0, 0, 1, 0, 0, 1, 0, 1]).log.map BmDone.answer = [none, some true, none, some true, none, some false] := by
  decide +kernel

/-- Threads 0 and 1 set different positions, and thread 2 asks for a third one. -/
private def twoWriters : Nat → List BmOp
  | 0 => [.change (.set 3), .get 3]
  | 1 => [.change (.set 5)]
  | 2 => [.get 6]
  | _ => []

private theorem twoWriters_change (i : Nat) (c : BmCall) (h : BmOp.change c ∈ twoWriters i) : c = .set 3 ∨ c = .set 5 := by
  match i with
  | 0 => exact .inl (by simpa [twoWriters] using h)
  | 1 => exact .inr (by simpa [twoWriters] using h)
  | 2 => simp [twoWriters] at h
  | _ + 3 => cases h

example := C99_byte_agree twoWriters (fun i c h => by rcases twoWriters_change i c h with rfl | rfl <;> decide) 6 (by decide) false
  (fun i h => by rcases twoWriters_change i _ h with h | h <;> cases h) 0 (by decide) [0, 1, 2, 0, 1, 0]
example := C99_short_agree twoWriters (fun i c h => by rcases twoWriters_change i c h with rfl | rfl <;> decide) 5 (by decide) true
  (fun i h => by rcases twoWriters_change i _ h with h | h <;> cases h) 0xFFFF (by decide) [0, 1, 2, 0, 1, 0]
example := C99_int_agree twoWriters (fun i c h => by rcases twoWriters_change i c h with rfl | rfl <;> decide) 6 (by decide) 0
  (.inr fun i c h => by rcases twoWriters_change i c h with rfl | rfl <;> decide) [0, 1, 2, 0, 1, 0]
example := C99_long_agree twoWriters (fun i c h => by rcases twoWriters_change i c h with rfl | rfl <;> decide) 6 (by decide) 0
  (.inr fun i c h => by rcases twoWriters_change i c h with rfl | rfl <;> decide) [0, 1, 2, 0, 1, 0]

/-- **C99, violated for two writers.** Two threads set different positions of an empty bit map; both calls return, and a position is not set: thread 0 has set it
and is told so, or not, by the next `get` it makes itself. -/
theorem C99_lost_update_violated :
    let end_ := fun sched => (BmSys.start 0 twoWriters).run ByteBitMap.methods sched
    (end_ [0, 1, 0, 1, 0]).log = [⟨0, .change (.set 3), none⟩, ⟨1, .change (.set 5), none⟩, ⟨0, .get 3, some false⟩]
      ∧ (end_ [0, 1, 0, 0, 1]).log = [⟨0, .change (.set 3), none⟩, ⟨0, .get 3, some true⟩, ⟨1, .change (.set 5), none⟩]
      ∧ ByteBitMap.get (end_ [0, 1, 0, 0, 1]).bits 3 = false := by
  decide +kernel

end FinProto
