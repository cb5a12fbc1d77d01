import Verif.Spec.Program
import Verif.Props.Methods
import Verif.Props.Java
/-
C85: registries that are initialised at their first use.
`Prog.start` has used nothing yet; `acts` is any history of calls on the factories and on the checksum registry, with uses of them for other purposes in between.
-/
namespace FinProto
open Methods
open Java (callEncode callDecode ListsFit GoodBuf)

variable (flt : Num → JStr) (n : Nat)

/-! ### One call, one initialiser -/

/-- The entry of key `k` after the registrations of the SSE factory's initialiser. -/
def sseEntry (k : Key) (regs : List (Cls × SseMessageType × Cls)) (old : Option (Option Supplier)) : Option (Option Supplier) :=
  regs.foldl (fun e r => if k = .int r.2.1.getValue then some (some (.make (fresh r.2.2))) else e) old

/-- The type recorded for a class after them. -/
def sseTypes (c : Option Kind) (regs : List (Cls × SseMessageType × Cls)) (old : Option HVal) : Option HVal :=
  regs.foldl (fun e r => if c = some (.msg r.1) then some (.num (.int r.2.1.getValue)) else e) old

theorem initSse_map (regs : List (Cls × SseMessageType × Cls)) : ∀ st : St,
    (∀ f k, (initSse flt n regs st).map f k = if f = .sse_SseBinary then sseEntry k regs (st.map f k) else st.map f k)
      ∧ (∀ c, (initSse flt n regs st).types c = sseTypes c regs (st.types c))
      ∧ (initSse flt n regs st).cache = st.cache ∧ (initSse flt n regs st).h = st.h := by
  induction regs with
  | nil => intro st; exact ⟨fun f k => by simp [initSse, sseEntry], fun c => rfl, rfl, rfl⟩
  | cons r regs ih =>
    intro st
    have h1 := C84_register_sse flt n (some (.msg r.1)) (.int r.2.1.getValue) (some (.make (fresh r.2.2))) st
    rw [keyVal] at h1
    have h2 : initSse flt n (r :: regs) st = initSse flt n regs (callFac flt n .sse_SseBinary registerSseBody
      [(.clazz, .cls (some (.msg r.1))), (.key, .val (.num (.int r.2.1.getValue))), (.supplier, .supplier (some (.make (fresh r.2.2))))] st).1 := rfl
    rw [h2, h1]
    obtain ⟨a, b, c, d⟩ := ih { st with
      map := fun f' k' => if f' = .sse_SseBinary ∧ k' = .int r.2.1.getValue then some (some (.make (fresh r.2.2))) else st.map f' k',
      types := fun c' => if c' = some (.msg r.1) then some (.num (.int r.2.1.getValue)) else st.types c' }
    refine ⟨fun f k => ?_, fun c' => ?_, c, d⟩
    · rw [a]
      by_cases hf : f = .sse_SseBinary
      · subst hf; simp [sseEntry]
      · simp [hf]
    · rw [b]; simp [sseTypes]

theorem initReg_rest (services : List Service) : ∀ st : St,
    (initReg flt n services st).map = st.map ∧ (initReg flt n services st).types = st.types ∧ (initReg flt n services st).h = st.h := by
  induction services with
  | nil => intro st; exact ⟨rfl, rfl, rfl⟩
  | cons s services ih =>
    intro st
    have h2 : initReg flt n (s :: services) st = initReg flt n services (callReg flt n registryBody [(.service, .service (some s))] st).1 := rfl
    rw [h2]
    obtain ⟨a, b, c⟩ := ih (callReg flt n registryBody [(.service, .service (some s))] st).1
    rw [a, b, c]
    rcases hc : st.cache (some s.algorithm) with _ | x <;> simp [callReg, registryBody, exec, step, eval, Env.at, args, hc]

theorem callRegCall_rest (st : St) (call : RegCall) :
    (callRegCall flt n st call).1.map = st.map ∧ (callRegCall flt n st call).1.types = st.types ∧ (callRegCall flt n st call).1.h = st.h := by
  cases call with
  | registry s =>
    rcases hc : st.cache (some s.algorithm) with _ | x <;> simp [callRegCall, callReg, registryBody, exec, step, eval, Env.at, args, hc]
  | remove name => simp [callRegCall, callReg, removeServiceBody, exec, step, eval, args]
  | clear => simp [callRegCall, callReg, clearBody, exec, step]
  | get name => simp [callRegCall, callReg, getServiceBody, exec, step, eval, args]

theorem callOp_eq (st : St) (op : FacOp) :
    (∀ f k, f ≠ facOf op → (callOp flt n st op).1.map f k = st.map f k)
      ∧ (∀ f k, ((callOp flt n st op).1.map f k).join = match op.stores f k with | some s => s.map .make | none => (st.map f k).join)
      ∧ (∀ c, (callOp flt n st op).1.types (some (.msg c)) = match op.types c with | some t => some (.num (.int t)) | none => st.types (some (.msg c)))
      ∧ (callOp flt n st op).1.cache = st.cache ∧ (callOp flt n st op).1.h = st.h := by
  cases op with
  | register f k s =>
    rw [callOp, C84_register]
    refine ⟨fun f' k' h => ?_, fun f' k' => ?_, fun c => rfl, rfl, rfl⟩
    · dsimp only; rw [if_neg fun hh => h hh.1]
    · simp only [FacOp.stores]
      by_cases h : f = f' ∧ k = k'
      · rw [if_pos h, if_pos ⟨h.1.symm, h.2.symm⟩]; rfl
      · rw [if_neg h, if_neg fun hh => h ⟨hh.1.symm, hh.2.symm⟩]
  | registerSse c t s =>
    have h1 := C84_register_sse flt n (some (.msg c)) (.int t) (s.map .make) st
    rw [keyVal] at h1
    rw [callOp, h1]
    refine ⟨fun f' k' h => ?_, fun f' k' => ?_, fun c' => ?_, rfl, rfl⟩
    · dsimp only; rw [if_neg fun hh => h hh.1]
    · simp only [FacOp.stores]
      by_cases h : f' = .sse_SseBinary ∧ k' = .int t
      · rw [if_pos h, if_pos h]; rfl
      · rw [if_neg h, if_neg h]
    · simp only [FacOp.types]
      by_cases h : c = c'
      · subst h; simp
      · rw [if_neg h, if_neg (by simpa using fun hh => h hh.symm)]
  | remove f k =>
    rw [callOp, C84_remove]
    refine ⟨fun f' k' h => ?_, fun f' k' => ?_, fun c => rfl, rfl, rfl⟩
    · dsimp only; rw [if_neg fun hh => h hh.1]
    · simp only [FacOp.stores]
      by_cases h : f = f' ∧ k = k'
      · rw [if_pos h, if_pos ⟨h.1.symm, h.2.symm⟩]; rfl
      · rw [if_neg h, if_neg fun hh => h ⟨hh.1.symm, hh.2.symm⟩]

/-- The initialiser of a factory fills its own map and no other. -/
theorem initOf_eq (f : Fac) (st : St) :
    (∀ g k, g ≠ f → (initOf flt n f st).map g k = st.map g k)
      ∧ ((∀ k, st.map f k = none) → ∀ k, ((initOf flt n f st).map f k).join = (Factories.initial.map f k).map .make)
      ∧ (f ≠ .sse_SseBinary → (initOf flt n f st).types = st.types)
      ∧ (f = .sse_SseBinary → (∀ c, st.types (some (.msg c)) = none) → ∀ c, ((initOf flt n f st).types (some (.msg c))).getD .null =
          match Factories.initial.getMsgType c with | some t => .num (.int t) | none => .null)
      ∧ (initOf flt n f st).cache = st.cache ∧ (initOf flt n f st).h = st.h := by
  let fs := allFac.filter (· ≠ .sse_SseBinary)
  have hd : fs.Nodup := by decide +kernel
  have hall : ∀ f, f ∈ fs ↔ f ≠ .sse_SseBinary := fun f => by cases f <;> decide +kernel
  have hF := (C84_static_initialisers flt n fs hd hall []).1
  obtain ⟨a, _, c, _⟩ := initFacs_map flt n (fun f => defaultRegs.filter (·.fac = f)) fs hd (.fresh [])
  obtain ⟨a', b', _, _⟩ := initSse_map flt n sseDefaultRegs (fs.foldl (fun st f => initFac flt n f (defaultRegs.filter (·.fac = f)) st) (.fresh []))
  unfold initOf
  by_cases hf : f = .sse_SseBinary
  · subst hf
    rw [if_pos rfl]
    obtain ⟨x, y, z, u⟩ := initSse_map flt n sseDefaultRegs st
    refine ⟨fun g k hg => by rw [x, if_neg hg], fun h0 k => ?_, fun h => absurd rfl h, fun _ h0 c' => ?_, z, u⟩
    · rw [x, if_pos rfl, h0, ← hF.map, initAll, a', if_pos rfl, a, if_neg (fun hh => (hall _).1 hh rfl)]
      rfl
    · have h1 := hF.types c'
      rw [initAll, b', c] at h1
      rw [y, h0]
      exact h1
  · rw [if_neg hf]
    obtain ⟨x, y, z, u⟩ := initFac_map flt n f (defaultRegs.filter (·.fac = f)) st
    refine ⟨fun g k hg => by rw [x, if_neg hg], fun h0 k => ?_, fun _ => z, fun h => absurd h hf, u, y⟩
    rw [x, if_pos rfl, h0, ← hF.map, initAll, a', if_neg hf, a, if_pos ((hall f).2 hf)]
    rfl

/-! ### The invariant -/

/-- What is initialised is as in `w` (and the recorded types as in `ty`), what is not is empty and still at its default there. -/
structure ProgAs (p : Prog) (w : World) (ty : Cls → Option (BitVec 32)) : Prop where
  up : ∀ f, p.up f = true → ∀ k, (p.st.map f k).join = (w.fac f k).map .make
  down : ∀ f, p.up f = false → (∀ k, p.st.map f k = none) ∧ ∀ k, w.fac f k = Factories.initial.map f k
  tyUp : p.up .sse_SseBinary = true → ∀ c, (p.st.types (some (.msg c))).getD .null = match ty c with | some t => .num (.int t) | none => .null
  tyDown : p.up .sse_SseBinary = false → (∀ c, p.st.types (some (.msg c)) = none) ∧ ∀ c, ty c = Factories.initial.getMsgType c
  regUp : p.upReg = true → RegAs p.st w.svc
  regDown : p.upReg = false → (∀ s, p.st.cache (some s) = none) ∧ w.svc = Registry.initial

variable {flt n}

theorem ProgAs.use {p : Prog} {w : World} {ty : Cls → Option (BitVec 32)} (hp : ProgAs p w ty) (f : Fac) :
    ProgAs (p.use flt n f) w ty ∧ (p.use flt n f).up f = true := by
  unfold Prog.use
  by_cases h : p.up f = true
  · rw [if_pos h]; exact ⟨hp, h⟩
  · rw [if_neg h]
    have h : p.up f = false := by simpa using h
    obtain ⟨a, b, c, d, e, _⟩ := initOf_eq flt n f p.st
    obtain ⟨h1, h2⟩ := hp.down f h
    refine ⟨⟨fun g hg k => ?_, fun g hg => ?_, fun hs c' => ?_, fun hs => ?_, fun hr s => ?_, fun hr => ?_⟩, by simp⟩
    · by_cases hgf : g = f
      · subst hgf; rw [b h1, h2]
      · dsimp only at hg ⊢
        rw [if_neg hgf] at hg
        rw [a g k hgf]
        exact hp.up g hg k
    · dsimp only at hg ⊢
      have hgf : g ≠ f := by rintro rfl; simp at hg
      rw [if_neg hgf] at hg
      refine ⟨fun k => ?_, (hp.down g hg).2⟩
      rw [a g k hgf]
      exact (hp.down g hg).1 k
    · dsimp only at hs ⊢
      by_cases hf : f = .sse_SseBinary
      · obtain ⟨t1, t2⟩ := hp.tyDown (hf ▸ h)
        rw [d hf t1, t2]
      · rw [if_neg (fun hh => hf hh.symm)] at hs
        rw [c hf]
        exact hp.tyUp hs c'
    · dsimp only at hs ⊢
      have hf : f ≠ .sse_SseBinary := by rintro rfl; simp at hs
      rw [if_neg (fun hh => hf hh.symm)] at hs
      rw [c hf]
      exact hp.tyDown hs
    · dsimp only at hr ⊢
      rw [e]
      exact hp.regUp hr s
    · dsimp only at hr ⊢
      rw [e]
      exact hp.regDown hr

theorem ProgAs.useReg {p : Prog} {w : World} {ty : Cls → Option (BitVec 32)} (hp : ProgAs p w ty) :
    ProgAs (p.useReg flt n) w ty ∧ (p.useReg flt n).upReg = true := by
  unfold Prog.useReg
  by_cases h : p.upReg = true
  · rw [if_pos h]; exact ⟨hp, h⟩
  · rw [if_neg h]
    have h : p.upReg = false := by simpa using h
    obtain ⟨a, b, _⟩ := initReg_rest flt n ctorServices p.st
    obtain ⟨h1, h2⟩ := hp.regDown h
    have h0 : RegAs (initReg flt n ctorServices p.st) Registry.initial := by
      have h3 := C84_registry_call flt n p.st (fun _ => none) h1 (.registry crc16Service)
      exact C84_registry_call flt n _ _ h3 (.registry crc32Service)
    refine ⟨⟨?_, ?_, ?_, ?_, fun _ => h2 ▸ h0, fun hr => by cases hr⟩, rfl⟩
    · dsimp only; rw [a]; exact hp.up
    · dsimp only; rw [a]; exact hp.down
    · dsimp only; rw [b]; exact hp.tyUp
    · dsimp only; rw [b]; exact hp.tyDown

theorem lastStored_snoc (f : Fac) (k : Key) (start : Option Val) (ops : List FacOp) (op : FacOp) :
    lastStored f k start (ops ++ [op]) = match op.stores f k with | some s => s | none => lastStored f k start ops := by
  unfold lastStored
  rw [List.reverse_append, List.reverse_singleton, List.singleton_append, List.findSome?_cons]
  rcases op.stores f k with _ | s <;> rfl

theorem facOps_snoc (acts : List Act) (a : Act) : facOps (acts ++ [a]) = facOps acts ++ (match a with | .fac op => [op] | _ => []) := by
  cases a <;> simp [facOps]

theorem regCalls_snoc (acts : List Act) (a : Act) : regCalls (acts ++ [a]) = regCalls acts ++ (match a with | .reg call => [call] | _ => []) := by
  cases a <;> simp [regCalls]

theorem worldAfter_svc (acts : List Act) : (worldAfter acts).svc = runCalls Registry.initial (regCalls acts) :=
  funext fun name => (C15_lookup (regCalls acts) name).symm

variable (flt n)

theorem run_snoc (p : Prog) (acts : List Act) (a : Act) : p.run flt n (acts ++ [a]) = (p.run flt n acts).act flt n a := by
  simp [Prog.run, List.foldl_append]

theorem snoc_induction {α : Type} {P : List α → Prop} (h0 : P []) (h1 : ∀ l a, P l → P (l ++ [a])) (l : List α) : P l := by
  rw [← l.reverse_reverse]
  induction l.reverse with
  | nil => exact h0
  | cons a l ih => rw [List.reverse_cons]; exact h1 _ _ ih

theorem progAs_run (h : Heap) (acts : List Act) : ProgAs ((Prog.start h).run flt n acts) (worldAfter acts) (typeAfter acts) := by
  induction acts using snoc_induction with
  | h0 =>
    refine ⟨fun f hf => by simp [Prog.run, Prog.start] at hf, fun f _ => ⟨fun k => rfl, fun k => rfl⟩, fun hf => by simp [Prog.run, Prog.start] at hf,
      fun _ => ⟨fun c => rfl, fun c => rfl⟩, fun hf => by simp [Prog.run, Prog.start] at hf, fun _ => ⟨fun s => rfl, ?_⟩⟩
    rw [worldAfter_svc]; rfl
  | h1 acts a ih =>
    rw [run_snoc]
    generalize (Prog.start h).run flt n acts = p at ih
    cases a with
    | useFac f =>
      have e1 : worldAfter (acts ++ [.useFac f]) = worldAfter acts := by simp [worldAfter, facOps_snoc, regCalls_snoc]
      have e2 : typeAfter (acts ++ [.useFac f]) = typeAfter acts := by funext c; simp [typeAfter, facOps_snoc]
      rw [e1, e2]
      exact (ih.use f).1
    | useReg =>
      have e1 : worldAfter (acts ++ [.useReg]) = worldAfter acts := by simp [worldAfter, facOps_snoc, regCalls_snoc]
      have e2 : typeAfter (acts ++ [.useReg]) = typeAfter acts := by funext c; simp [typeAfter, facOps_snoc]
      rw [e1, e2]
      exact ih.useReg.1
    | reg call =>
      have e2 : typeAfter (acts ++ [.reg call]) = typeAfter acts := by funext c; simp [typeAfter, facOps_snoc]
      have e1 : (worldAfter (acts ++ [.reg call])).fac = (worldAfter acts).fac := by simp [worldAfter, facOps_snoc]
      have e3 : (worldAfter (acts ++ [.reg call])).svc = call.run (worldAfter acts).svc := by
        rw [worldAfter_svc, worldAfter_svc, regCalls_snoc]; simp [runCalls, List.foldl_append]
      rw [e2]
      obtain ⟨hq, hu⟩ := ih.useReg (flt := flt) (n := n)
      obtain ⟨a, b, _⟩ := callRegCall_rest flt n (p.useReg flt n).st call
      show ProgAs ⟨(callRegCall flt n (p.useReg flt n).st call).1, (p.useReg flt n).up, (p.useReg flt n).upReg⟩ _ _
      refine ⟨?_, ?_, ?_, ?_, fun _ => ?_, fun hr => ?_⟩
      · dsimp only; rw [a, e1]; exact hq.up
      · dsimp only; rw [a, e1]; exact hq.down
      · dsimp only; rw [b]; exact hq.tyUp
      · dsimp only; rw [b]; exact hq.tyDown
      · rw [e3]; exact C84_registry_call flt n _ _ (hq.regUp hu) call
      · dsimp only at hr; rw [hu] at hr; cases hr
    | fac op =>
      have e1 : (worldAfter (acts ++ [.fac op])).svc = (worldAfter acts).svc := by simp [worldAfter, regCalls_snoc]
      have e2 : ∀ f k, (worldAfter (acts ++ [.fac op])).fac f k = match op.stores f k with | some s => s | none => (worldAfter acts).fac f k := by
        intro f k
        simp only [worldAfter, facOps_snoc]
        exact lastStored_snoc f k _ _ op
      have e3 : ∀ c, typeAfter (acts ++ [.fac op]) c = match op.types c with | some t => some t | none => typeAfter acts c := by
        intro c
        simp only [typeAfter, facOps_snoc, List.reverse_append, List.reverse_singleton, List.singleton_append, List.findSome?_cons]
        rcases op.types c with _ | t <;> rfl
      obtain ⟨hq, hu⟩ := ih.use (flt := flt) (n := n) (facOf op)
      obtain ⟨a, b, c, d, _⟩ := callOp_eq flt n (p.use flt n (facOf op)).st op
      have hno : ∀ f k, f ≠ facOf op → op.stores f k = none := by
        intro f k hf
        cases op with
        | register f' k' s => exact if_neg fun hh => hf hh.1.symm
        | registerSse c t s => exact if_neg fun hh => hf hh.1
        | remove f' k' => exact if_neg fun hh => hf hh.1.symm
      have hnt : facOf op ≠ .sse_SseBinary → ∀ c, op.types c = none := by
        intro hf c
        cases op with
        | register f' k' s => rfl
        | registerSse c t s => exact absurd rfl hf
        | remove f' k' => rfl
      show ProgAs ⟨(callOp flt n (p.use flt n (facOf op)).st op).1, (p.use flt n (facOf op)).up, (p.use flt n (facOf op)).upReg⟩ _ _
      refine ⟨fun f hf k => ?_, fun f hf => ?_, fun hs c' => ?_, fun hs => ?_, fun hr s => ?_, fun hr => ?_⟩
      · dsimp only at hf ⊢
        rw [b, e2]
        rcases op.stores f k with _ | s
        · exact hq.up f hf k
        · rfl
      · dsimp only at hf ⊢
        have hne : f ≠ facOf op := by rintro rfl; rw [hu] at hf; cases hf
        refine ⟨fun k => ?_, fun k => ?_⟩
        · rw [a f k hne]; exact (hq.down f hf).1 k
        · rw [e2, hno f k hne]; exact (hq.down f hf).2 k
      · dsimp only at hs ⊢
        rw [c, e3]
        rcases op.types c' with _ | t
        · exact hq.tyUp hs c'
        · rfl
      · dsimp only at hs ⊢
        have hne : facOf op ≠ .sse_SseBinary := by intro hh; rw [← hh, hu] at hs; cases hs
        refine ⟨fun c' => ?_, fun c' => ?_⟩
        · rw [c, hnt hne]; exact (hq.tyDown hs).1 c'
        · rw [e3, hnt hne]; exact (hq.tyDown hs).2 c'
      · dsimp only at hr ⊢
        rw [d, e1]; exact hq.regUp hr s
      · dsimp only at hr ⊢
        rw [d, e1]; exact hq.regDown hr

/-! ### C85 -/

/-- **C85.** Whenever the classes happen to be initialised: what `create`, `getMsgType` and `getChecksumService` find is the supplier stored last (or the default), the type
recorded last (or the default), and the first service offered since the name was reset. -/
theorem C85_registries (h : Heap) (acts : List Act) :
    ((Prog.start h).run flt n acts).sup flt n = (worldAfter acts).suppliers
      ∧ ((Prog.start h).run flt n acts).svc flt n = (worldAfter acts).svc
      ∧ ∀ c, ((Prog.start h).run flt n acts).msgType flt n c = match typeAfter acts c with | some t => .num (.int t) | none => .null := by
  have hp := progAs_run flt n h acts
  generalize (Prog.start h).run flt n acts = p at hp
  refine ⟨?_, ?_, ?_⟩
  · funext f k
    obtain ⟨hq, hu⟩ := hp.use (flt := flt) (n := n) f
    exact hq.up f hu k
  · funext name
    obtain ⟨hq, hu⟩ := hp.useReg (flt := flt) (n := n)
    have := hq.regUp hu name
    rw [Prog.svc, this]
    rcases (worldAfter acts).svc name with _ | s <;> rfl
  · intro c
    obtain ⟨hq, hu⟩ := hp.use (flt := flt) (n := n) .sse_SseBinary
    exact hq.tyUp hu c

/-- **C85.** So it does not matter what is used when: two programs that make the same calls on the factories, and the same calls on the checksum registry, find the same,
however these calls are interleaved and whatever else was used in between. -/
theorem C85_when_does_not_matter (h h' : Heap) (acts acts' : List Act) (hf : facOps acts = facOps acts') (hr : regCalls acts = regCalls acts') :
    ((Prog.start h).run flt n acts).sup flt n = ((Prog.start h').run flt n acts').sup flt n
      ∧ ((Prog.start h).run flt n acts).svc flt n = ((Prog.start h').run flt n acts').svc flt n
      ∧ ((Prog.start h).run flt n acts).msgType flt n = ((Prog.start h').run flt n acts').msgType flt n := by
  obtain ⟨a, b, c⟩ := C85_registries flt n h acts
  obtain ⟨a', b', c'⟩ := C85_registries flt n h' acts'
  have hw : worldAfter acts = worldAfter acts' := by simp only [worldAfter, hf, hr]
  have ht : typeAfter acts = typeAfter acts' := by funext x; simp only [typeAfter, hf]
  refine ⟨by rw [a, a', hw], by rw [b, b', hw], funext fun x => by rw [c, c', ht]⟩

/-- **C85.** In particular an `encode` or `decode` that uses a registry for the first time does not change what later calls find. -/
theorem C85_first_use (h : Heap) (acts : List Act) (f : Fac) :
    (((Prog.start h).run flt n acts).use flt n f).sup flt n = ((Prog.start h).run flt n acts).sup flt n
      ∧ (((Prog.start h).run flt n acts).useReg flt n).sup flt n = ((Prog.start h).run flt n acts).sup flt n
      ∧ (((Prog.start h).run flt n acts).use flt n f).svc flt n = ((Prog.start h).run flt n acts).svc flt n
      ∧ (((Prog.start h).run flt n acts).useReg flt n).svc flt n = ((Prog.start h).run flt n acts).svc flt n := by
  have h1 := C85_when_does_not_matter flt n h h (acts ++ [.useFac f]) acts (by simp [facOps_snoc]) (by simp [regCalls_snoc])
  have h2 := C85_when_does_not_matter flt n h h (acts ++ [.useReg]) acts (by simp [facOps_snoc]) (by simp [regCalls_snoc])
  rw [run_snoc] at h1 h2
  exact ⟨h1.1, h2.1, h1.2.1, h2.2.1⟩

/-- **C85.** A program that has only used registries, and never changed them, finds what the model starts with. -/
theorem C85_untouched (h : Heap) (acts : List Act) (hf : facOps acts = []) (hr : regCalls acts = []) :
    ((Prog.start h).run flt n acts).sup flt n = World.initial.suppliers ∧ ((Prog.start h).run flt n acts).svc flt n = World.initial.svc := by
  obtain ⟨a, b, _⟩ := C85_registries flt n h acts
  have hs : (worldAfter acts).svc = World.initial.svc := by rw [worldAfter_svc, hr]; rfl
  have hw : (worldAfter acts).fac = World.initial.fac := by simp only [worldAfter, hf]; rfl
  refine ⟨?_, by rw [b, hs]⟩
  rw [a]
  funext fac k
  simp only [World.suppliers, hw]

/-- The suppliers the program registers build messages. -/
def TypedCalls (acts : List Act) : Prop :=
  ∀ op ∈ facOps acts, ∀ f k v, op.stores f k = some (some v) → wellTyped v = true

theorem typed_worldAfter (acts : List Act) (ht : TypedCalls acts) : TypedSuppliers (worldAfter acts) := by
  intro fac key v hv
  simp only [worldAfter, lastStored] at hv
  rcases ho : List.findSome? (FacOp.stores fac key) (facOps acts).reverse with _ | s
  · rw [ho] at hv
    exact C28_default_world.1 fac key v hv
  · rw [ho] at hv
    obtain ⟨op, hop, hs⟩ := List.exists_of_findSome?_eq_some ho
    simp only [Option.getD_some] at hv
    exact ht op (by simpa using hop) fac key v (by rw [hs, hv])

/-- **C85 (round trip of two programs).** Two programs from their start, each with its own history of calls on its registries, each initialising them whenever it uses them first.
The sender runs the statements of `encode` on a message whose content is canonical for the receiver, the receiver those of `decode` on a new object: the object shows
the content the message has after `encode`, and exactly the bytes written are consumed. -/
theorem C85_round_trip (hs hr : Heap) (sent received : List Act) (ht : TypedCalls received) (m : Nat) (c : Cls) (fs : List Val)
    (h : Heap) (hl : ListsFit h) (x : HVal) (hx : Shows h (.obj c fs) x) (b : WBuf) (hv : wellTyped (.obj c fs) = true) (hb : b.Valid) (hcap : b.maxCap < 2 ^ 31)
    (hcan : canonical (worldAfter received) (.obj c fs)) (hm : depth (.obj c fs) ≤ m) (k : Heap) (hk : TypedHeap k) (h' : Heap) (b' : WBuf)
    (hok : callEncode (((Prog.start hs).run flt n sent).svc flt n) (((Prog.start hs).run flt n sent).sup flt n) n x h b = some (h', b', none)) :
    ∃ bytes fs', b'.data = b.data ++ bytes ∧ settle (worldAfter sent).svc b.readable (.obj c fs) = .obj c fs' ∧
      ∀ before after spare, ∃ k',
        callDecode (((Prog.start hr).run flt n received).svc flt n) (((Prog.start hr).run flt n received).sup flt n) m (.ref k.length) (k ++ [newMsg c])
            ⟨before ++ bytes ++ after, spare, before.length⟩
          = some (k', ⟨before ++ bytes ++ after, spare, before.length + bytes.length⟩, none)
        ∧ Unshared k' (.obj c fs') (.ref k.length) := by
  obtain ⟨a, d, _⟩ := C85_registries flt n hs sent
  obtain ⟨a', d', _⟩ := C85_registries flt n hr received
  rw [a, d] at hok
  rw [a', d']
  exact C82_round_trip (worldAfter sent) (worldAfter received) (typed_worldAfter received ht) n m c fs h hl x hx b hv hb hcap hcan hm k hk h' b' hok

/-- A program that registers a service, removes a default supplier before the factory was ever used, and uses another factory in between. -/
def exActs : List Act :=
  [.reg (.registry sseBinService), .useFac .szse_SzseBinary, .fac (.remove .sample_RootPacket (.short 3)), .reg (.remove "CRC32"), .useReg,
   .fac (.register .sample_RootPacket (.short 7) (some (fresh .sample_EmptyPacket)))]

theorem exActs_typed : TypedCalls exActs := by
  intro op hop f k v hv
  simp only [exActs, facOps, List.filterMap_cons, List.filterMap_nil, List.mem_cons, List.not_mem_nil, or_false] at hop
  rcases hop with rfl | rfl
  · simp only [FacOp.stores] at hv
    by_cases hc : Fac.sample_RootPacket = f ∧ Key.short 3 = k
    · rw [if_pos hc] at hv; cases hv
    · rw [if_neg hc] at hv; cases hv
  · simp only [FacOp.stores] at hv
    by_cases hc : Fac.sample_RootPacket = f ∧ Key.short 7 = k
    · rw [if_pos hc] at hv; cases hv; decide +kernel
    · rw [if_neg hc] at hv; cases hv

set_option maxRecDepth 10000 in
theorem exActs_two : (worldAfter exActs).fac .sample_RootPacket (.short 2) = some (fresh .sample_StringPacket) := rfl

example : ((Prog.start []).run flt n exActs).svc flt n "SSE_BIN" = some sseBinService ∧ ((Prog.start []).run flt n exActs).svc flt n "CRC32" = none
    ∧ ((Prog.start []).run flt n exActs).svc flt n "CRC16" = some crc16Service
    ∧ ((Prog.start []).run flt n exActs).sup flt n .sample_RootPacket (.short 3) = none
    ∧ ((Prog.start []).run flt n exActs).sup flt n .sample_RootPacket (.short 2) = some (.make (fresh .sample_StringPacket))
    ∧ ((Prog.start []).run flt n exActs).sup flt n .sample_RootPacket (.short 7) = some (.make (fresh .sample_EmptyPacket)) := by
  obtain ⟨a, b, _⟩ := C85_registries flt n [] exActs
  rw [a, b]
  refine ⟨by rfl, by rfl, by rfl, ?_, ?_, ?_⟩
  · simp only [World.suppliers]; rw [show (worldAfter exActs).fac .sample_RootPacket (.short 3) = none from rfl]; rfl
  · simp only [World.suppliers]; rw [exActs_two]; rfl
  · simp only [World.suppliers]; rw [show (worldAfter exActs).fac .sample_RootPacket (.short 7) = some (fresh .sample_EmptyPacket) by rfl]; rfl

/-- The theorems on these acts. -/
example := C85_when_does_not_matter flt n [] [] exActs
  [.fac (.remove .sample_RootPacket (.short 3)), .fac (.register .sample_RootPacket (.short 7) (some (fresh .sample_EmptyPacket))), .useReg,
    .reg (.registry sseBinService), .reg (.remove "CRC32")] rfl rfl
example := C85_untouched flt n [] [.useFac .szse_SzseBinary, .useReg] rfl rfl
example (h' : Heap) (b' : WBuf) := C85_round_trip flt n [] [] exActs exActs exActs_typed 3 .sample_SubPacket [.num ⟨.i32, 7⟩, .list [.num ⟨.i16, 5⟩]]
  [.msg .sample_SubPacket [.num ⟨.i32, 7⟩, .ref 1], .arr [.num ⟨.i16, 5⟩]]
  (by
    intro a xs h
    match a with
    | 0 => simp at h
    | 1 => simp at h; subst h; decide
    | k + 2 => simp at h)
  (.ref 0) (by decide +kernel) ⟨[9], 0, 100⟩ (by decide +kernel) ⟨by decide, by decide⟩ (by decide)
  ⟨trivial, ⟨by simp, (by decide : countFits .i16 1), trivial, trivial⟩, trivial⟩ (by decide +kernel) [] typed_empty h' b'

end FinProto
