import Verif.Proofs.OwnProgram
import Verif.Model.Factory
/-
C118: a program that keeps its messages to itself.
-/
namespace FinProto

/-- A program makes a packet (value 0), sets its number and gives it a list with two elements, encodes it, makes another packet (value 4) and decodes into it what it has
written, reads the number and the list from it,
compares the two packets and prints one. -/
private def sendToMyself (l : List Sight) : OwnOp :=
  match l.length with
  | 0 => .new .sample_SubPacket
  | 1 => .leaf (.inl ⟨.i32, 7⟩)
  | 2 => .set 0 0 1
  | 3 => .newList
  | 4 => .set 0 1 2
  | 5 => .leaf (.inl ⟨.i16, 5⟩)
  | 6 => .add 2 3
  | 7 => .add 2 3
  | 8 => .encode 0 ⟨[], 0, 100⟩
  | 9 => .new .sample_SubPacket
  | 10 => match (l[8]? : Option Sight) with
    | some (.wrote b none) => .decode 4 ⟨b.data, [], 0⟩
    | _ => .null
  | 11 => .get 4 0
  | 12 => .get 4 1
  | 13 => .item 6 1
  | 14 => .size 6
  | 15 => .equals 0 4
  | 16 => .hashCode 4
  | _ => .toString 4

private def noFloats : Num → JStr := fun _ => []

/-- A packet of somebody else, with its list. -/
private def somebodys : Heap := [.msg .sample_SubPacket [.num ⟨.i32, 8⟩, .ref 1], .arr []]

/-- Before each access the object at `a` becomes something else. -/
private def ruin (a : Nat) : Acts := fun k g =>
  g.set a (if k % 2 = 0 then .arr (List.replicate k (.ref a)) else .msg .sample_SubPacket [.num (.int (BitVec.ofNat 32 k)), .ref 1])

/-- **C118.** A program makes, fills, reads, compares, prints, encodes and decodes messages; it decides what to do from what it has seen.  Whatever other threads do meanwhile to objects that
do not belong to the program (it did not know them at the start, directly or through others, and has not made them): it sees exactly what it sees when there is nobody
else, all values, bytes and exceptions, for any number of operations; and its objects hold the same. -/
theorem C118_program (w : World) (flt : Num → JStr) (o : Acts) (n : Nat) (p : List Sight → OwnOp) (h : Heap) (xs : List HVal) (k m : Nat) (ho : AwayFrom h xs o)
    (hfit : ∀ j, j < m → HListsFit (ownRun w flt n p j ⟨h, xs, []⟩).h) :
    (busyRun w flt o n p m ⟨h, k, xs, []⟩).log = (ownRun w flt n p m ⟨h, xs, []⟩).log ∧ (busyRun w flt o n p m ⟨h, k, xs, []⟩).env = (ownRun w flt n p m ⟨h, xs, []⟩).env ∧
      ∀ q, MineAll h xs q → (busyRun w flt o n p m ⟨h, k, xs, []⟩).h[q]? = (ownRun w flt n p m ⟨h, xs, []⟩).h[q]? := by
  have h1 := orun (confined_away (P := fun _ => True) ho (fun _ _ _ _ => trivial) (fun _ _ _ => trivial)) w flt n p m (opair_start trivial k []) hfit
  exact ⟨h1.log, h1.env, fun q hq => h1.off.same q fun hn => hn hq⟩

/-- **C118.** So all values it knows show what they show when there is nobody else. -/
theorem C118_shows (w : World) (flt : Num → JStr) (o : Acts) (n : Nat) (p : List Sight → OwnOp) (h : Heap) (xs : List HVal) (k m : Nat) (ho : AwayFrom h xs o)
    (hfit : ∀ j, j < m → HListsFit (ownRun w flt n p j ⟨h, xs, []⟩).h) (i : Nat) (x : HVal) (hi : (ownRun w flt n p m ⟨h, xs, []⟩).env[i]? = some x) (v : Val)
    (hv : Shows (ownRun w flt n p m ⟨h, xs, []⟩).h v x) :
    (busyRun w flt o n p m ⟨h, k, xs, []⟩).env[i]? = some x ∧ Shows (busyRun w flt o n p m ⟨h, k, xs, []⟩).h v x := by
  have h1 := orun (confined_away (P := fun _ => True) ho (fun _ _ _ _ => trivial) (fun _ _ _ => trivial)) w flt n p m (opair_start trivial k []) hfit
  refine ⟨by rw [h1.env]; exact hi, (shows_frame _ _ _ _ hv fun q hq => ?_).1⟩
  exact h1.off.same q (off_reach h1.off ((refs_iff_reach _ _ _ hv q).1 hq) (h1.free x (by rw [h1.env]; exact List.mem_of_getElem? hi)))

private theorem ruin_away {h : Heap} {a : Nat} (ha : a < h.length) : AwayFrom h [] (ruin a) := by
  intro k g
  refine ⟨List.length_set, fun q hq => List.getElem?_set_ne ?_⟩
  rintro rfl
  rcases hq with ⟨x, hx, _⟩ | hq
  · cases hx
  · omega

private theorem small_fit (h : Heap) (hs : (h.all fun ob => match ob with | .arr xs => decide (xs.length ≤ 2147483647) | _ => true) = true) : HListsFit h := by
  intro a xs e
  rw [List.all_eq_true] at hs
  simpa using hs _ (List.mem_of_getElem? e)

/-- The program of eighteen operations, while the objects of somebody else become all sorts of things: it reads back what it has sent. -/
example : AwayFrom somebodys [] (ruin 1) ∧ (∀ j, j < 18 → HListsFit (ownRun World.initial noFloats 9 sendToMyself j ⟨somebodys, [], []⟩).h) ∧
    (let r := busyRun World.initial noFloats (ruin 1) 9 sendToMyself 18 ⟨somebodys, 0, [], []⟩
     (∃ b, r.log[8]? = some (.wrote b none) ∧ b.data = [7, 0, 0, 0, 2, 0, 5, 0, 5, 0]) ∧ r.log[11]? = some (.value (.num ⟨.i32, 7⟩)) ∧
       r.log[13]? = some (.value (.num ⟨.i16, 5⟩)) ∧ r.log[14]? = some (.count 2) ∧
       r.log[15]? = some (.compared (.ok true)) ∧ r.log[16]? = some (.hashed (hhash r.h 9 (.ref 2))) ∧
       r.log[17]? = some (.printed (some (js "SubPacket [fieldU32=7, fieldI16List=[5, 5]]"))) ∧ r.h[1]? ≠ somebodys[1]?) := by
  refine ⟨ruin_away (by decide), fun j hj => small_fit _ ?_, ⟨_, rfl, by decide +kernel⟩, rfl, rfl, rfl, rfl, rfl, rfl, by decide +kernel⟩
  revert j
  decide +kernel

/-- **C118.** The other way round, the program does nothing to objects that do not belong to it: what the others keep true of them stays true. -/
theorem C118_others (w : World) (flt : Num → JStr) (o : Acts) (n : Nat) (p : List Sight → OwnOp) (h : Heap) (xs : List HVal) (k m : Nat) (ho : AwayFrom h xs o)
    (hfit : ∀ j, j < m → HListsFit (ownRun w flt n p j ⟨h, xs, []⟩).h) (P : Heap → Prop) (hP : ∀ g g', (∀ q, ¬ MineAll h xs q → g'[q]? = g[q]?) → P g → P g')
    (hs : ∀ k g, P g → P (o k g)) (hh : P h) : P (busyRun w flt o n p m ⟨h, k, xs, []⟩).h :=
  (orun (confined_away ho hP hs) w flt n p m (opair_start hh k []) hfit).off.about

/-- The packet of somebody else, which nobody changes, stays. -/
example : (busyRun World.initial noFloats (ruin 1) 9 sendToMyself 18 ⟨somebodys, 0, [], []⟩).h[0]? = somebodys[0]? := by
  refine C118_others _ _ _ _ _ _ _ _ _ (ruin_away (by decide)) (fun j hj => small_fit _ ?_) (fun g => g[0]? = somebodys[0]?) (fun g g' hg h => ?_) (fun k g h => ?_) rfl
  · revert j
    decide +kernel
  · show g'[0]? = _
    rw [hg 0, h]
    rintro (⟨x, hx, _⟩ | h0)
    · cases hx
    · exact absurd h0 (by decide)
  · dsimp only [ruin]
    rw [List.getElem?_set_ne (by decide), h]

/-! ### What does not hold -/

/-- **C118 violated.** It is not enough that the others leave alone the objects the program knows directly: here they change the list of a packet, which the program has
not got yet, and the program encodes something else. -/
theorem C118_known_violated : ∃ (h : Heap) (xs : List HVal) (p : List Sight → OwnOp) (o : Acts), (∀ k g, (o k g).length = g.length ∧
      ∀ q, .ref q ∈ xs ∨ h.length ≤ q → (o k g)[q]? = g[q]?) ∧
    (busyRun World.initial noFloats o 9 p 1 ⟨h, 0, xs, []⟩).log ≠ (ownRun World.initial noFloats 9 p 1 ⟨h, xs, []⟩).log := by
  refine ⟨[.msg .sample_SubPacket [.num ⟨.i32, 8⟩, .ref 1], .arr []], [.ref 0], fun _ => .encode 0 ⟨[], 0, 100⟩, fun _ g => g.set 1 (.arr [.num ⟨.i16, 5⟩]),
    fun k g => ⟨List.length_set, fun q hq => List.getElem?_set_ne ?_⟩, fun h => ?_⟩
  · rintro rfl
    rcases hq with hq | hq
    · simp at hq
    · exact absurd hq (by decide)
  · have := congrArg (fun l : List Sight => match l with | [.wrote b _] => b.data.length | _ => 0) h
    revert this
    decide +kernel

end FinProto
