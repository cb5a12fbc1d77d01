# Formal model of fin-proto-java: design

Everything below lives in `lean/Verif/`:
`Model/` (the code), `Spec/` (independent specifications the theorems mention), `Proofs/` (helper lemmas) and
`Props/` (one theorem `Cnn_…` per claim, with `example`s that meet the hypotheses).
`properties.jsonl` holds the English properties, `MANIFEST.json` the theorems for each, `AXIOMS.txt` the output of
`#print axioms` for each of them (`tools/axioms.sh`).

## 1. What is modelled

| Part of /repo | Lean module | How |
|---|---|---|
| Netty `ByteBuf` operations used by the code, Java `String`/UTF-8, integers | `Model/Basic.lean`, `Utf8.lean`, `Buf.lean` | hand-written library model (trusted base, see 5) |
| `codec/.../BinaryCodec.java` | `Model/BinaryCodec.lean` | function by function |
| `codec/.../*ChecksumService*.java`, `ChecksumAlgorithms.java`, `ChecksumServiceFactory.java` | `Model/Checksum.lean` | function by function |
| `codec/.../bitmap/*.java` | `Model/BitMap.lean` | function by function |
| the statements of these methods, one by one | `Model/Mini.lean`, `Model/Codec.lean` | deep embedding, printed and compared with /repo; proved equal to the functions above (C83) |
| the statements of `equals`, `hashCode`, `toString`, the accessors, the factories with their static initialisers, `fromValue`, the registry and `verify`, one by one | `Model/Methods.lean` | deep embedding, printed and compared with /repo; proved equal to the functions below and above (C84) |
| all 182 message classes (5 protocol modules, nested static classes included): fields, `encode`, `decode` | `Model/Classes/*.lean` (tables), `Model/IR.lean`, `Model/Interp.lean` (meaning of each statement form) | statement by statement, see 2 |
| message factories, SSE `MessageType`, reverse map | `Model/Factory.lean` + generated tables | function by function |
| `equals`, `hashCode`, `toString`, getters/setters of all classes | `Model/ObjectMethods.lean` + generated tables | function by function |
| several threads using the checksum registry, the message factories, a bit map, or encoding, decoding, comparing, hashing, printing one message or messages with common parts | `Model/ConcurrentRegistry.lean`, `ConcurrentFactory.lean`, `ConcurrentDecode.lean`, `History.lean`, `ConcurrentEncode.lean`, `ConcurrentHeap.lean`, `ConcurrentBitMap.lean`, `Racing.lean`, `RacingDecode.lean`, `RacingObjects.lean`, `RacingHeap.lean`, `WeakHeap.lean`, `AnyHeap.lean`, `AnyDecode.lean`, `AnyObjects.lean`, `OwnProgram.lean`, `During.lean` | small-step systems, see 4 |
| bodies, extensions, suppliers and checksum services that are not in the repository | `Model/Open.lean` | the interpreter with arbitrary code in their place |
| the same `encode` and `decode` statements on objects with references: sharing, aliasing, cycles; `equals`, `hashCode`, `toString` on them | `Model/Heap.lean`, `HeapObjects.lean` | second interpreter of the class tables over a heap; proved to agree with the first |

Java integers are bit vectors, so all wrap-around is exact.  Strings are lists of UTF-16 code units, unpaired
surrogates included.  Exceptions are results that keep the partially written buffer and the partially updated object.
The call stack is a parameter `n`: a call at depth 0 throws `stackOverflow`.

Not modelled: build files, the code generator that produced the classes, `Float.toString`/`Double.toString` (a parameter), memory exhaustion, the unregistered legacy
overloads of Netty the code does not call.

**Citations.** Every definition of `lean/Verif/Model` carries `[File.java:lines]` in its comment.  Where a definition stands for the JDK or
for Netty, which are not in the repository, or is machinery of the model (a list of classes, a step of a thread, the heap), the
citation names the lines of the repository that use it or that it represents, and the comment says which simplification is made.

**Instances.** Every file of `lean/Verif/Props` ends with `example := Theorem arguments …` for its theorems that have hypotheses: the theorem
applied to a concrete message, heap, schedule or history, with its hypotheses proved for it.

## 2. Message classes: deep embedding

The 182 message classes are generated code with a small vocabulary of statements.  `tools/extract.py` reads each Java
file and must match *every character* of it against a fixed list of patterns (it aborts otherwise).  It emits, for
every class: the field declarations, the list of `encode` statements, the list of `decode` statements, the accessor
pairs, the pairs compared by `equals`, the arguments of `Objects.hash`, the pieces of `toString`, and the default
registrations of its factory.  Each is translated independently of the others; nothing is inferred (e.g. `decode` is
not derived from `encode`).  The results are ordinary Lean definitions with file:line citations; the Lean meaning of
each statement form (`EncStmt`, `DecStmt`) is in `Interp.lean`.

The way back is checked too: `lean/Verif/Tests/Render.lean` writes the Java text of every file from the Lean tables alone, and
`tools/roundtrip.py` compares it with /repo: all 175 files agree character by character, white space apart (imports, accessors, factories and
`MessageType` included).  So the tables say everything the files say, whatever the extractor does; `Render.lean` is a printer
for the statement syntax of `Model/Java.lean` (C82) and for the rest of the tables.

The *specification* of the wire format is separate: `Spec/Layout*.lean` lists for every class the field names with
their wire types, obtained from the literals of the unit tests (`tools/layout.py`: `(short) 2` = 16-bit, `"1111"` =
4-byte text, ...) plus the per-protocol conventions (byte order, prefix widths); it never looks at `src/main`.
`Spec/Wire.lean` defines the wire image of an object by naive concatenation.  That the extracted code implements this
layout is itself a theorem (kernel computation over the complete class table), so a wrong field width, order, byte
order or key in any of the 182 classes fails the build.

As a check of the model itself, `lean/Verif/Tests/*.lean` runs the 178 unit-test classes of /repo on it: `tools/tests.py`
transcribes the tests of the message classes (setters, encode, decode, `assertEquals`), `Tests/Codec.lean` has the others, by hand.  These are tests of
the model, not proofs; no theorem uses them.

## 3. Plan per property

Codec:
* C01–C06 fixed strings: model of `BinaryCodec` over the buffer model; induction on the string / pad count.  C01 is
  false for null/empty + padLeft: negation with witness, `_partial` for the rest.
* C64–C66 a heap of objects with references (`Model/Heap.lean`).  `Shows` (`Spec/Heap.lean`) relates an object to the tree
  it unfolds to.  Encode: simulation by induction on the depth, where computed fields of shared objects may differ.
  Decode: simulation with ownership (no object twice) as the invariant, and a frame condition.
* C67 relaying: `received` (what arrives) is idempotent where nothing vanishes, because what the decoder makes of a text fits its field and
  is well-formed; everything accepted by `decode` is legible for the next receiver.  Chains of hops (`SentOn`) by induction.
* C71 which bytes decode accepts: a grammar of the wire layouts (`Spec/Grammar.lean`), without buffer, order of execution or depth.
  Soundness of `decode` by induction on the depth (the interpreter's statement order against the layout), completeness by mutual induction
  over the derivation; unambiguity follows because `decode` is a function.
* C72 streams: every outcome but an index error depends only on the bytes consumed, and an index error can be cured by more bytes
  (`Stream`, closed under the reader combinators); a receiver that collects chunks (`Spec/Stream.lean`) by induction over the chunks.
* C73 reused buffers: `decode` with old bytes behind the writer index is compared statement by statement with `decode` on a longer buffer; as long
  as the reader index is inside the written bytes both agree, and once it is outside no number can be read any more, so a key that is looked up
  afterwards was read before (a table of all classes, `sure_table`); hence an unknown key found there is unknown whatever follows (`Proofs/Doom.lean`).
* C74 fan-out: a small-step machine with an explicit call stack per thread over one heap (`Model/ConcurrentHeap.lean`).  One thread alone: its steps add
  up to `hencode` (simulation by induction on the call depth and the statements).  Several threads: each is where it would be alone after as many
  steps, and the objects it can reach are as they would be then; only computed fields are ever assigned, and the objects having them are not common.
* C75 end-to-end integrity: sender's `encode` (C34), receiver's `decode` and `verify` put together.  Whatever is accepted ends in the checksum of
  what is in front (the last statement of `decode` reads it); one changed byte: C12 or the checksum bytes themselves; CRC-32: a packet with the right
  checksum behind it has a constant CRC (residue), so C09/C68 apply to the packet as a whole, also across the border.
* C76 object methods on the heap (`Model/HeapObjects.lean`): simulation of the tree versions for whatever is shared, by induction on the stack depth;
  a returned hash code or string is turned into the tree it was computed from, so there is no cycle.
* C77 threads that decode and encode at once (`Model/ConcurrentDecode.lean`): where new objects are put depends on the schedule, so each thread is
  compared with its run alone up to a renaming of places (`Proofs/Renaming.lean`): every step keeps the renaming, extends it by new objects and
  touches renamed objects only; renamings of different threads have disjoint images.  Alone the steps add up to `hdecode`/`hencode`.
* C78 all histories (`Model/History.lean`): application operations and thread steps in any order. Type preservation: a heap is typed if every field
  has a value of its declared type and no list is held by fields with different element types (`Spec/TypedHeap.lean`); each operation and each
  step keeps this, and the calls in progress fit the class of their object; that the statements of the 182 classes fit the field types is
  checked by the kernel for each class (`encFits_table`, `decFits_table`). `illTyped`, the model's outcome for what cannot happen in Java, is thereby shown
  unreachable in the concurrent heap model, not assumed away.
* C79 bounded work (`Spec/Work.lean`): a budget per call, 99 for each byte ahead plus the costs of the statements left on the call stack, falls with every step of the
  thread and is not changed by anything others do (objects keep their class, C78). Every loop iteration and every nested call reads a byte first or uses up a statement
  that did: a table over all 182 classes, checked by the kernel. The same for `encode` and the room left; null texts in left-padded lists write nothing, so the
  length `L` of these lists enters the bound (`C79_left_padded_violated`).
* C80 data races (`Model/Access.lean`, `Spec/Races.lean`): each step is given the list of fields and lists it reads and writes.  Two theorems check this
  list against the steps (nothing else is changed; nothing else matters); the race theorem compares an access now with an access of another thread at
  any later moment.  The invariant is that of C77 with a weaker separation: threads may have objects in common that all of them only encode and that are
  not frames, so C80 also covers decoding threads next to threads that encode messages with common parts.
* C81 aliasing: `Op.set`, `Op.put`, `Op.new` of the history model against a substitution on shown values (`swapped`, `Spec/Alias.lean`), by induction
  on the value; that fields of an object do not lead back to it comes from the finiteness of what it shows.
* C82 statement by statement: `Model/Java.lean` has a syntax for the Java of `encode` and `decode` (expressions, conditions, blocks, `for` loops, locals, calls) and
  its meaning as a possibly non-terminating interpreter (`partial_fixpoint`, `none` = runs forever): expressions are evaluated where and as often as they stand
  in the text.  Theorem: on typed heaps it equals `hencode`/`hdecode`, by induction on the call-stack depth, then over the statements, with the loop
  invariant that `encode` of an element changes no list.  `Tests/Render.lean` prints exactly these statements, so what is compared with /repo is what is run.
* C83 the module `codec` statement by statement: `Model/Mini.lean` gives the meaning of the Java the module uses (typed locals and fields, compound assignment,
  casts, `int`/`long` arithmetic, `while` and `for` loops, arrays, calls, exceptions) as an interpreter that may run forever, `Model/Codec.lean` has the bodies of
  the methods.  `Tests/RenderCodec.lean` prints them and `tools/roundtrip.py` compares the result with /repo.  The theorems (loop invariants; the CRC loops against
  the fold of C07/C08) say that each call ends with the effect of the function of `Model/BinaryCodec.lean`, `FixedInt.lean`, `Checksum.lean`, `BitMap.lean`.
* C84 the remaining methods statement by statement: `Model/Methods.lean` has the syntax (references, `==`, `||` and `&&` with their evaluation order, string
  concatenation, casts, `HashMap` calls, `if`, `for`, `throw`), its meaning as a total interpreter (the only recursion, through `Objects.equals`, `Objects.hash` and
  `String.valueOf`, is bounded by the call-stack depth), and the bodies.  `Tests/RenderMethods.lean` prints them; with them all 188 Java files of the main
  source sets are printed from the model and compared with /repo.  The theorems: running a body gives the result of `HeapObjects.lean`, `Factory.lean`, `Checksum.lean`
  (induction on the stack depth; symbolic execution), static initialisers in any order, histories of calls.
* C85 initialisation at first use: `Model/Program.lean` runs a static initialiser when its class is used first (JLS 12.4) and mixes calls on the factories and on the
  checksum registry; an invariant over histories (what is initialised is as specified, what is not is empty and still at its default) shows that the time of
  initialisation cannot be observed, and composes C82 and C84 into a round trip of two programs from their start.
* C86 the seams between the three statement semantics: each step of `Model/Java.lean` that stands for a call into the module `codec` (fixed-width text in and out,
  the lookup of a service, `calc`) is shown equal to running the text of the called method by `Model/Mini.lean` and `Model/Methods.lean`; a check of all classes shows
  that the widths in their text satisfy the hypotheses.  (The seam at `create` is in C84.)
* C87 sizes: two runs of `encode` side by side (a simulation over statements, then induction on the stack depth) on messages of the same shape, with different buffers
  and registries; that the computed fields are `int`s is a check of all classes.  Also gives C46 for messages with NaNs.
* C88 sharing, after `encode`: bytes from the simulation of C64 (which ignores computed fields) and transitivity; what a message shows from a second
  simulation with full agreement, which rests on two checks of all classes: at most one field of a class can hold an arbitrary message, and the classes used as
  fields or list elements have neither computed fields nor such a field, so a frame occurs in a finite message at most once; which objects are changed from
  the step semantics of C63 with the set of reachable objects as invariant.
* C89 threads at start-up: `Model/Startup.lean` adds the state of each registry class (not used, being initialised by a thread, initialised) to the systems of C58
  and C59; a static initialiser is a list of map operations, one step each, and a thread that needs a class another thread is initialising waits (JLS 12.4.2, trusted).
  Simulation by the system that is filled before it starts (the operations still to come are applied in advance); for progress, a load that every step which changes
  anything lowers, and a waiting thread's initialiser is never itself waiting.
* C90 buffers: `Model/Netty.lean` is `encode` on a buffer as Netty implements it - an array with arbitrary bytes behind the writer index, replaced by a longer one by
  an arbitrary rule, `setXxx` checked against the capacity, a reference count - proved equal to `encode` on the bytes below the writer index; that `setXxx` only
  touches bytes written before by an analysis of the statements of each class (`allFit`, computed for all 182).  Netty's own rule for new capacities satisfies the condition on rules.
* C91 length-field framing: `Spec/Cut.lean` is a receiver that knows only the offset, the byte order and the trailer of the length field (as Netty's
  `LengthFieldBasedFrameDecoder`, which is not part of the repository).  C33 gives that every encoded frame says its own length; then by induction over the frames,
  and over the chunks as in C72.  `C91_disagree_violated`: `decode` ignores the length field.
* C92 a buffer as a queue: `Model/NettyRead.lean` is `decode` (statement for statement) on the buffer of C90, and `discardReadBytes`; `Proofs/NettyRead.lean` shows by induction that it
  goes through the same reader indices as `decode` of `Interp.lean` on what is below and behind the writer index.  `Spec/MsgQueue.lean` is the application code (send, take, discard) and
  a first-in-first-out specification `Fifo`; induction over the history with the invariant that the unread bytes are the images of the waiting messages.
  `C92_ghost_violated`: classes with texts only (`C92_kinds`: 65 classes, all others are fine) are read from behind the writer index.
* C93 interrupted `encode`: the machine of C74, stopped anywhere (`Spec/Interrupted.lean`: episodes).  Heap: the step lemma of C74 with no condition on the objects gives `Chg` along any schedule,
  so the simulation of C64 applies to every later call.  Buffers: an invariant over the stack of calls - each call patches behind the position at which it began, where there are zeros
  until then, and in front of the position at which the call it waits for began - from a table over all `encode` methods (`patchOk_table`).
* C94 out of memory: in `Model/Netty.lean` every growth may fail.  Each operation on a buffer with limit C that ends with an array of M bytes does the same on the buffer with limit M, with
  `OutOfMemoryError` turned into `IndexOutOfBoundsException` (`Cap`, through all functions up to `encode_cap`); the limited run has enough memory, so C90, C53 and C30 apply to it.
* C95 decode cut short: `moment` (Proofs/Moments.lean) says what an object may hold while `decode` runs; proved for the micro-step machine of C77 by induction along the steps of one
  thread (Proofs/HeapMoments.lean), carried over to any schedule by the renaming of C77.  `PartlyFilled` (Spec/HalfDecoded.lean) is the independent description.  Repetition rests on: decoding into
  an object at a moment of an earlier attempt gives what decoding into the object before that attempt gives (`moment_resume`).
* C96 messages as keys: Model/Keys.lean models `HashMap.get/put/remove` (hash code first, then comparison with the entries that have the same stored hash code,
  by reference and by `equals`) on the heap model with its `hequals` and `hhash`; a history mixes these calls with everything else an application does. Spec: the latest call with
  the same value (`same`), no hash codes. Proof: invariant that every entry keeps the hash code of the value its key shows and that keys are pairwise different.
* C97 what `decode` writes to: invariant over the statements of `hdecode` for a set of objects that is closed under fields declared with a message class; needs that every
  `this.F.decode` comes right after `this.F = …create(…)` (checked for all classes by `decStmts_table`).
* C98 a journal in a file (`Spec/Journal.lean`): lives of a process that end with a crash after any number of bytes; induction over the lives and the records of each, from C23
  (a whole record is decoded, whatever follows), C26 (a torn one is an index error) and the lemmas of C72 about reading a stream.
* C99 threads on one bit map (`Model/ConcurrentBitMap.lean`): `set` and `clear` are a load and a store of the field; one writer: invariant "what the writer has loaded is the
  field"; several writers: every property of the contents that single changes keep is kept by all interleavings.
* C100 texts of exceptions: in `Model/Methods.lean` the `throw` statements of `create` and `fromValue` keep the text they build (`Flow.illegal`), and
  `keyWord` is what the text of each factory calls its key (printed and compared with /repo by `Tests/Render.lean`).  Theorem: the text after any history is the
  one in `Spec/Texts.lean`; a number can be read back from its decimal form, so keys of one type have different texts.
* C101 bytes of a bit map: `Spec/BitMapWire.lean` names bit `j` of byte `i`; the write loops are shown to be one-byte writes in sequence
  (`writeEach`), whose effect on a full buffer is closed by induction; the read loops are folded into `accum`, whose bits are characterised by
  induction over any number of bytes (shifts modulo 32 and 64).
* C102 resilient receiver: `Spec/Resilient.lean` composes the cutter of C91 with the checking receiver of C75 (`takeIn`); slight damage is named per
  kind of frame (`Slight`). Proof: the pieces keep their length fields, so the cutter stays in step; each piece alone is settled by C75 and C23.
* C103 setters called during an encode (`Model/Racing.lean`): `encode` with every access of a field as a step of its own, as often as the Java text
  has it, and arbitrary assignments by others before each access.  Simulation with the sequential interpreter on a mixture, statement by
  statement; that every field is used by one statement and in field order is a check over all class tables.  Without an exception every reading
  statement has run, so the moments are strictly increasing and none is before the first access.  `C103_kept` (what is left in the fields) is about any
  assignments, also of lists and computed fields: an edit that lost the assignments made just before `this.msgBodyLen = ...` changed no byte and broke no
  theorem's meaning until it was added.
* C104 value of `hashCode`: closed formula in `Spec/HashValue.lean` (naturals modulo 2^32); folds by induction; 31 is invertible modulo 2^32.
* C105 new messages: the fields of `new C()` against zero and null (`Spec/NewMessage.lean`), setter histories of C51, bytes from C22 with the bytes of
  unset fields computed field by field; the three frames with a checksum one by one.
* C106 patching: on the sending side `image` splits at the field; on the receiving side every successful decode splits into the pieces the fields took
  (`Proofs/Patch.lean`, on top of the reader laws of C27), and a value read earlier matters later only as a key.
* C107 object methods with parts of the application: `Model/OpenObjects.lean` runs the tables `eqs`, `hash`, `str` of a class with the application's
  `equals`, `hashCode` and `toString` as parameters that may throw (`Likeness`), conjuncts and operands in order. `equals` is characterised by
  induction on the conjuncts; `hashCode` and `toString` are reduced to the closed model with a number or a text in the place of the object.
  Not modelled: an application object that changes the message while it is compared, hashed or printed.
* C108 setters during a decode: `Model/RacingDecode.lean` runs `decode` with the accesses of the Java text, other threads assigning any fields between any
  two of them (same simplifications as C103). Simulation by `decode` alone: each field is the one alone left, overwritten by what was set since its last
  assignment; fields that are read again are spared, so reads agree. Which fields these are is read off the layouts (`Reread`).
  When a field is assigned is fixed before the schedule is: a first version of `C108_outcome` chose this moment for each schedule anew, and so would
  have held of a `decode` that discards what others set.
* C109 getters during a decode: the threads of C77 (`Model/ConcurrentDecode.lean`); an observer reads the heap after any number of steps
  (`Halt.getter`, `Spec/Observers.lean`).  C95 says what one moment looks like; here several moments of one schedule are compared: the number of statements
  completed does not decrease (`track_stmts`), a statement assigns one field, the fields come in the order of the layout (checked for all classes,
  `dec_forward`), and a statement that assigns a number or a text is one step.
* C110 `equals`, `hashCode`, `toString` while setters run: `Model/RacingObjects.lean`, with the accesses and other threads of C103.  The tables say that every
  class reads its fields in the order of the layout (`eqs_table`, `hash_table`, `str_table`), so access number `f` (of `equals`: `2f` and `2f+1`) is that of
  field `f`; induction over the fields.  The specification is `mixture` of C103.
* C111 setters at any depth during an encode: `Model/RacingHeap.lean` runs the statements of all classes on the heap; before each access (of a field, of a list
  element) the other threads may set any fields of any objects, of parts that the call is just writing as well.  `Saw` (`Spec/RacingHeap.lean`) is an inductive
  relation between a reference and a tree, given only what others set and when: each field at the beginning of an interval of its own, its inside within that interval, intervals of later fields later.
  Proved by induction on the stack depth with the invariant that the heap has the shape it had and that fields `encode` does not compute hold what was set last
  (`HGood`).  `C111_image` and the frame theorems add types: `Saw` preserves them.
* C112 weak reads during an encode: `Model/WeakHeap.lean` is the same program as C111's, with a read returning what memory holds or what a function `Seen` says for
  this access.  `Readable` (`Spec/WeakHeap.lean`) says what it may return: a value from before, one somebody sets at any time, or the halves of two for 64-bit fields.
  Nothing orders the reads, so this covers whatever happens-before edges there are.  Proof: each such run is, step by step, the run of C111 in which others set every
  field, before each access, to what a read of it would return (`asSets`, `both_encode`); what was seen there (`Saw`) is then a choice of readable values (`Picked`).
* C113 anything during an encode: `Model/AnyHeap.lean` is C111's program once more, with an arbitrary function of the memory before each access.  Appending is an
  invariant of the statements (`ABeyond`: saved positions are behind the original content, so patching the length changes nothing in front).  The frame theorems
  run the statements of the four frame classes: header, then `astmts_body` (the distance of the saved positions is the number of bytes the nested call appended)
  and `astmts_checksum`.  `C113_setters` and `C113_weak` relate it to C111 and C112.
* C114 anything during a decode: `Model/AnyDecode.lean` is C65's decoder on a heap with an arbitrary function of the memory before each access to an object; the buffer
  is used by this thread only.  That it only reads forward is an induction over the program (`adecode_fwd`), and without interference it is `hdecode` (`adecode_quiet`).
  For the position, `dec_table` turns the decoder of each class into the compiled layout, and the induction goes field by field (`unit_*`, `units_ok`, `adecode_ok`)
  beside the tree decoder, with the invariant `Mild` (classes kept; message types and bodies unchanged but for the field being assigned).  A table says that parts and
  list elements have no bodies themselves.
  `Proofs/CalmDecode.lean` does the same for others that set no lists and parts (`Calm`), where the exception is the same too: there the invariant is `Rest`, and a call on a
  message without parts leaves the lists and parts of all other messages alone.
* C115 anything during `equals`, `hashCode`, `toString`: `Model/AnyObjects.lean` is C76's program with the accesses one by one, each finding a memory of its own; as the
  three methods assign nothing, the memories are a given sequence.  `hashCode` reads all fields before it hashes the first, `toString` prints each field when it is read (the
  classes are compiled for Java 8: `StringBuilder`).  `Glimpse`, `FoundEqual` and `FoundDifferent` (`Spec/AnyObjects.lean`) say what was seen and when (`Moments`);
  induction on the depth, inside on the fields or elements.
* C116 own messages: the programs of C113 and C114, run among others who change only objects that are not the message's (`Elsewhere`) and run alone, side by side.  The
  invariant `Off` says that the two memories agree on all objects that are not theirs, that these do not refer to theirs, and that what is known of theirs (`P`) holds.
  As addresses are handed out in order, for `decode` objects the others make are counted among those at the start, where nothing refers to them.  `encode` makes no objects,
  and `C116_encode_making` lets the others make any number during the call (`Leaves`); likewise `C116_decode_making` for the 150 classes without lists, parts and bodies.
* C117 numbers and texts set during a decode: as C116, but the two memories (`Near`) may also differ in fields of the message that are neither lists,
  parts or bodies nor message types, where the one among others may have a value that the others set (`V`).  A check of the decoders of all 182 classes (`looks_table`) shows that `decode` reads back only lists, parts, bodies and message types.
* C118 whole programs: `Model/OwnProgram.lean` runs a program (any function from what it has seen to the next operation) on the heap of C113, C114 and C115, with anything done
  by others before each access; `Spec/OwnProgram.lean` runs it alone, with `hencode`, `hdecode`, `hequals`, `hhash` and `htoStr`.  Simulation step by step with C116's invariant `Off`.
* C119 others who make objects: the others are known by the objects they have at the start (`R`); they may change what can be reached from these, make objects, and link all
  these (`Limited`, `Spec/Limited.lean`).  `decode` among them puts its new objects at other places than `decode` alone, so the two memories are compared up to a renaming
  of places (`Ren`, the relation of the threads of C77), together with a set that contains what the others can reach and no renamed place (`Sep`).
  A message that a thread keeps (`C119_history`): induction on what the thread does with it; that the others cannot reach it, and that no object occurs in it twice, is kept by each `decode`,
  each `encode` (it leaves the objects of the message where they are, `refs_chg` in `Proofs/LimitedKept.lean`) and each turn of the others.
* C70 parts supplied by the application (`Model/Open.lean`): bodies, extensions, suppliers and checksum services are arbitrary functions
  that may throw anything, return null and change the buffer.  Symbolic execution of the five frames around any such part; the 14 messages
  with an extension through a table check that the extension comes last; agreement with `Interp.lean` statement by statement.
* C69 UTF-8: the model of the JDK's codec against Lean's own `String` (its UTF-8 bytes) and the standard's definition of UTF-16; for bytes
  that are not UTF-8 against a relation `ReadAs` that is proved to determine the result.
* C68 scattered bit errors: the CRC difference of two messages is the CRC of the error pattern; parity of the register for an odd
  number of flips; for two flips the order of the shift register, 32767 and 2^32 - 1, by multiplication of remainders and powers by
  squaring (evaluated in the kernel) at the order and at its quotients by each prime factor.
  Three flips: an error at distances a, b from the last flip escapes CRC32 iff the register states after a and b steps differ in the top
  bit only; that no two of the first 91632 states do is one kernel computation, lifted by soundness lemmas (`Proofs/Packed`: all states are
  digits of one number, a check that each digit follows from the one before it, a sorting network whose rounds are checked to exchange
  disjoint pairs, and a check that the sorted digits ascend); so the limit of 11454 bytes is exact, the escape at 11455 bytes is shown
  with fast exponentiation.
  Four flips: likewise with sums of two of the first 3000 states, about 4.5 million, in 157 computations of the kernel
  (`Proofs/CrcFourParts1`, `CrcFourParts2`) that together cover every distance between the two states.
* C63 widths as 32-bit Java ints, negative ones included (`Model/FixedInt.lean`): case distinction on the sign.
* C07–C13 checksums: the table-driven loops are refined to a bitwise reference CRC (`Spec/Crc.lean`); the 256-entry
  tables by kernel computation on the whole table; messages by induction.  Burst detection (C09) by linearity and
  invertibility of the shift register; bits are numbered in the order in which the CRC consumes them, least
  significant bit of each byte first.
* C14–C16 `verify`, registry as a map; histories by induction over lists of calls (`Spec/Registry.lean`).
* C17–C21 bitmaps: BitVec reasoning, `get` characterised by position; histories by induction; negations with
  witnesses for the bugs (C18, C19).

Messages (generic proofs by induction on the layout and on call depth, instantiated for all 182 classes):
* C22, C25, C30, C31, C33, C34, C37, C48 encode: exact image, sizes, offsets, errors, frames, idempotence.
* C23, C24, C26–C29, C32, C35, C36, C47, C49, C52 decode: round trip, streams, truncation, locality, errors,
  reuse of objects, dispatch, missing validation, injectivity.  C52 exactly: a class-by-class specification of "messages can end with text"
  (`Spec/Beyond.lean`), one direction by induction on fields and depth, the other by a computed witness per class (a table of all 182 classes).
* C41 default registrations against an independent table of message types (`Spec/MessageTypes.lean`).
* C53 failed encodes (every point of failure, every number of attempts); C54 decode retried on growing prefixes.
* C55–C57 messages built by decode: can be relayed, determine their bytes, are complete and of one protocol.
* C62 size of what decode builds against the bytes it consumes (`Spec/Amount.lean` counts characters, elements, values).

Factories and objects:
* C38–C40 factories as maps, refinement of histories.
* C04, C42–C46, C50, C51 `equals`/`hashCode`/`toString`/accessors: structural induction over values; class tables by
  kernel computation on the complete table.

Threads (every schedule, any number of threads):
* C58–C61, see 4.

Properties that are false of the code (C01 left pad, C18, C19, C32, C36, C44, C52, parts of C26, C55, C56, C58–C60)
are stated as proved negations with concrete witnesses (`…_violated`), and what does hold is proved next to them
(with the suffix `_partial` where the property itself is cut down).

## 4. Threads

A schedule is an arbitrary list of thread numbers; `run` folds `step` over it, so a theorem about all schedules is an
induction over lists.  Each operation on a `HashMap` (or, for `encode`, each Java statement) is one indivisible step
whose effect every thread sees at once.  What this leaves out: `HashMap` is not thread-safe, so a real JVM may also
lose entries during a resize or show stale values (Java memory model).  The theorems therefore give guarantees that
hold *even if* every single map operation were atomic and visible, and the violations are failures that need no
weak-memory behaviour at all.

For `encode` and `decode` themselves (C74, C77) the interleavings are enough: C80 shows that the calls have no data races under the hypotheses of
these theorems, and then the Java memory model guarantees (JLS 17.4.5) that only interleavings can be observed.

C61 (`Model/During.lean`) is the view of a single call: a message is decoded or encoded while the registries change under
it in an arbitrary way, modelled by one registry state per value of the reader (writer) index; the dispatching
statements use the state current at that moment.

## 5. Trusted base

* Lean 4.33.0's kernel.  Axioms: at most `propext`, `Classical.choice`, `Quot.sound` for every theorem; the exact list
  per theorem is in `AXIOMS.txt`.  No axioms of our own, no `sorry`, no `native_decide`, no `bv_decide`.
* That the printers give each syntax constructor as the Java construct whose meaning (JLS) the interpreter gives it: `Tests/Render.lean` for `Model/Java.lean`
  (`eval`, `test`, `simple`, `run`), `Tests/RenderCodec.lean` for `Model/Mini.lean` (`eval`, `simple`, `exec`), `Tests/RenderMethods.lean` for `Model/Methods.lean`
  (`eval`, `step`, `exec`).  What is printed is compared with all 188 Java files of the main source sets by `tools/roundtrip.py`; that the tables and functions of the
  model mean the same as the statements is C82, C83 and C84, not trusted.  The printers check operator precedence (`fits`).  Text that is printed but has no
  meaning in the model: package and import lines, modifiers, annotations, declared types of parameters and locals (the types of fields are in the model), `getInstance()` and the `INSTANCE` of the enums.
* The guarantee of the Java memory model for programs without data races (C80).
* The reading of the libraries (no network, so from knowledge of Netty 4.1.100 and the JDK):
  * `ByteBuf` write methods append or throw `IndexOutOfBoundsException` and write nothing; `readXxx` are checked
    against the writer index; `readCharSequence(len, UTF_8)` on a heap buffer goes through
    `ByteBufUtil.decodeString`, which is checked against the backing array only (this is what C26/C52 turn on; with a
    direct buffer `getBytes` is checked against the capacity, the same model with the same `spare`).
  * `String.getBytes(UTF_8)` replaces unpaired surrogates by `?`; decoding replaces malformed input by U+FFFD, one per
    maximal malformed prefix (an encoded surrogate counts as one).  C69 shows that the model of both is standard UTF-8 apart from that.
  * `Objects.hash`, `Objects.equals`, `List.hashCode`, `Float/Double` equality as documented.
  * `HashMap` is a map with at most one entry per key and `equals` on keys.
* Simplifications, each repeated at its definition:
  * objects are trees: two fields never share a mutable sub-object, lists are not aliased (`IR.lean`).  C64–C66 lift the
    results to objects with references: encode for any sharing, decode for messages without internal sharing;
  * in `Interp.lean` (not in `Open.lean`, C70) a supplier registered with a factory returns an equal object of a modelled class each time, and does not throw
    (`Interp.lean`; in `Model/Heap.lean` it may also hand out an existing object);
  * in `Interp.lean` (not in `Open.lean`, C70) a checksum service neither modifies the buffer, throws nor returns null (`Checksum.lean`);
  * `setInt` on the buffer: the capacity is taken to be the writer index (`Buf.lean`).  C90 shows that with the real capacity, and a buffer that grows, nothing changes;
  * `String`/list sizes and buffer indices are unbounded naturals where Java has ints; the places where the code
    narrows them (counts, length fields) are exact;
  * sub-messages are encoded in one step in the first concurrent model (`ConcurrentEncode.lean`, C60), and the concurrency
    theorems say when that makes no difference; in the second one (`ConcurrentHeap.lean`, C74) and the third (`ConcurrentDecode.lean`, C77) they are not;
  * the observers of C109 see the latest assignments in the order in which they were made (Java promises this only to threads that synchronise with the
    decoding one);
  * in `Racing.lean` (C103), `RacingHeap.lean` (C111), `RacingObjects.lean` (C110) and `RacingDecode.lean` (C108) an access of a field sees the latest assignment (Java also allows older values and, for `long`,
    halves: for encode see `WeakHeap.lean`, C112, where objects are still seen as constructed, and lists with their elements); in all but `RacingHeap.lean` nobody changes the contents of nested messages during the call; in `RacingHeap.lean` nobody changes the contents of lists (setters may replace them; for changes of the contents see `AnyHeap.lean`, C113, and for decode `AnyDecode.lean`, C114, where `add` is indivisible);
  * in `AnyObjects.lean` (C115) the `ConcurrentModificationException` that `ArrayList` throws when its size changes during `equals`, `hashCode` or `toString` is not modelled.

## 6. Disagreements between the code and the properties

Each is a theorem with a witness.

| What | Where in /repo | Theorem |
|---|---|---|
| null/empty value in a left-padded fixed field writes 0 bytes instead of `len` | `BinaryCodec.java:20-30` | `C01_fixed_width_violated` |
| `IntBitMap.clear` / `LongBitMap.clear` set the bit | `IntBitMap.java`, `LongBitMap.java` | `C18_int_clear_violated`, `C18_long_clear_violated` |
| Short/Int/Long bitmaps do not survive write + read | `ShortBitMap.java`, … | `C19_short_violated`, `C19_int_violated`, `C19_long_violated` |
| truncated text fields are filled with stale bytes of the backing array, reader index passes writer index | Netty `readCharSequence`, all `readFixedString` users; exactly the 111 classes whose messages can end with text | `C52_violated`, `C52_exact` |
| with old bytes behind the writer index, a message of which only the beginning has arrived decodes to something else | as above; stream receivers | `C72_spare_violated` |
| with an old byte behind the writer index, a stream receiver delivers a risk-control frame of which the last byte has not arrived, with the old byte in its place | as above; the risk-control frame has no checksum | `C73_no_checksum_violated`, `C73_other_classes_violated` |
| two threads that encode messages with a common frame inside can send each other's checksum | `encode` keeps the checksum in a field between computing and writing it, e.g. SseBinary.java:78-80 | `C74_common_frame_violated` |
| a frame written behind unread bytes carries their checksum too; a receiver that verifies it refuses the frame | the checksum services read the whole readable region | `C75_unread_bytes_violated` |
| `equals` on two cyclic messages with the same values, `hashCode` and `toString` on any cyclic message overflow the stack | generated methods, no cycle check | `C76_cyclic`, `C76_cyclic_equals_violated` |
| threads that decode different frames mix up each other's bodies if a supplier hands out one object | nothing in the API forbids such suppliers | `C77_one_body_violated` |
| a list changed by another thread while it is encoded gives bytes with a wrong count, without exception | the size is read once for the count and again in the loop (ExecRptSync.java:26-27) | `C78_changed_during_encode_violated` |
| the work of `encode` is not bounded by the bytes it writes | null texts in lists of left-padded texts write nothing (StringPacket.java:180) | `C79_left_padded_violated` |
| threads that encode one frame, or encode a message that another decodes into, have a data race | computed fields are assigned during `encode` | `C80_common_frame_violated`, `C80_decoded_while_encoded_violated` |
| a message of a class with fixed-width texts only is decoded from an empty buffer, out of memory behind the writer index | 37 classes, e.g. SZSE `Extend100601.decode` | `C92_ghost_violated` |
| a reader that looks at a buffer while `encode` is in progress can decode a frame with length 0 without an exception | RcBinary.java:62: the length is put in by the last statement | `C93_reader_violated` |
| content of a message given up in the middle of `decode` shows up in the next message decoded into the same object | lists and length-prefixed strings that are empty on the wire | `C95_left_over_violated` |
| a frame put into a hash map is not found after it has been encoded | all frames with computed fields | `C96_encode_loses_violated` |
| a nested message taken from a message is overwritten by the next decode into the message | `NestedPacket.decode` and others with `if (null == this.F)` | `C97_nested_violated` |
| three flipped bits can go unnoticed by CRC32 in messages of 11455 bytes or more | `CRC32` checksum service | `C68_three32_violated` |
| four flipped bits can go unnoticed by CRC32 in messages of 376 bytes, by CRC16 in messages of 3 bytes | checksum services | `C68_four32_violated`, `C68_four16_violated` |
| zeros or further messages behind a torn frame complete it to a message nobody has written | `decode` of the frames does not look at the length or the checksum | `C98_torn_zeros_violated`, `C98_not_cut_violated` |
| of two threads that set different positions of a bit map one loses its change | `ByteBitMap.set` and the others: `bits \|= bit` | `C99_lost_update_violated` |
| the exceptions for a null application id and for the id "null" have the same text | `"Unsupported ApplID:" + applId` | `C100_null_violated` |
| a changed byte in a length field costs a receiver that cuts by it an intact frame as well | the length field has no checksum of its own | `C102_length_violated` |
| setters called during an encode: a null can make it throw, a list can be written with a wrong count, a frame with a wrong length, although the message is in order before and after | fields are read more than once; computed fields are kept in the message | `C103_null_violated`, `C103_list_violated`, `C103_length_violated` |
| setters called during a decode: with the message type set, a part is decoded as another class; with the body or a list set, it throws or loses elements | fields are read again after they were assigned | `C108_type_violated`, `C108_body_violated`, `C108_list_violated` |
| getters called during a decode see fields of two messages, and lists with some of their elements | fields are assigned one by one, lists are filled after they are assigned | `C109_torn_violated`, `C109_list_violated` |
| `equals` may be true of messages that were equal at no moment, `hashCode`/`toString` may belong to a message that never existed, if setters are called meanwhile | the fields are read one by one | `C110_equals_violated`, `C110_torn_violated` |
| a part that occurs several times in a message may be written differently each time if its setters are called meanwhile | it is read anew each time | `C111_shared_violated` |
| a frame may carry a sequence number nobody ever set, if `setMsgSeqNum` is called during the encode | fields are plain `long`s: JLS 17.7 allows two 32-bit reads | `C112_torn_violated` |
| of a part that occurs twice the first may be written with a newer value than the second | fields are plain: reads may go back to older values | `C112_back_violated` |
| `encode` may throw `NullPointerException` in the middle of a message if a list is set to null meanwhile | the field is read again after the check for null | `C111_null_violated` |
| the count in front of a list may differ from the number of elements written, without an exception, if elements are added meanwhile | `size()` is called once for the count and again in each round of the loop | `C113_count_violated` |
| encode may throw `IndexOutOfBoundsException` in the middle of a message that is well-typed all the time, if elements are taken out meanwhile | `size()` and `get(i)` are separate calls | `C113_throws_violated` |
| a frame may give a wrong body length if `setMsgBodyLen` is called during `encode` | the length is put into the field and read from there again to patch the buffer | `C113_length_violated` |
| a list element decoded may be missing if the list is changed meanwhile | elements are added to the list the field holds at that moment | `C114_list_violated` |
| `decode` may throw `NullPointerException` although the bytes are in order, if a list is set to null meanwhile | elements are added to the list the field holds at that moment | `C114_null_violated` |
| the body may be read as another class, past the end of the frame, if the message type is set during `decode` | the type is read back from the field to choose the body | `C114_type_violated` |
| bytes may be decoded into an unrelated message if the body is set during `decode` | the body is put into the field and read from there again to be decoded | `C114_body_violated` |
| a single setter call during `hashCode`, `toString` or `equals` is enough to get the value of a message that never existed, if a part occurs twice in it | parts are read anew each time they occur | `C115_one_setter_violated`, `C115_equals_violated` |
| a message that shows the same value all the time may have another hash, another text and be different from an equal one | a part that was replaced by an equal one may be looked into later, when it is used for something else | `C115_stale_violated` |
| a program may encode something else if others change a list of a message that it knows, even if they do not touch the message | setters and getters hand out the list itself | `C118_known_violated` |
| a number set during `decode` may replace the decoded one | each field is set as soon as it is read | `C117_set_violated` |
| a message to which nobody else has a reference may be written differently if somebody has a reference to its list | setters and getters hand out the list itself | `C119_list_violated` |
| a message that nobody else works on may be written differently if it has a list in common with a message somebody works on | setters and getters hand out the list itself | `C116_shared_violated` |
| empty strings in lists of length-prefixed strings disappear | `StringPacket.decode` | `C32_violated` |
| lists/strings with 32768 or more elements/bytes in a 16-bit count cannot be read back | all 16-bit counts | `C31_no_round_trip` |
| decode never checks length or checksum | all frames | `C36_violated` |
| `hashCode` of the 28 classes without fields calls itself for ever | e.g. `Heartbeat.hashCode` | `C44_violated` |
| equal messages may encode differently (NaN payloads) | `Objects.equals` on boxed floats | `C46_nan_payload_differs` |
| `getMsgType` still answers after `remove` | SSE factory | `C39_stale_after_remove` |
| SSE/SZSE checksums are not registered by default, so frames carry the caller's checksum | `ChecksumServiceFactory` | `C16_sse_frame`, `C16_szse_frame` |
| a checksum computed earlier is sent again after its algorithm was removed | frames | `C53_registry_change_matters` |
| relaying changes texts that were not UTF-8; sample: blank left-padded text and lists of empty strings | frames | `C55_replacement_violated`, `C55_sample_violated` |
| a length-prefixed string that was not UTF-8 triples in size when it is sent on, and may exceed its prefix | `writeString`/`readString` users | `C67_growing` |
| two threads registering one algorithm are both told `true` | `ChecksumServiceFactory.registry` | `C58_race_violated` |
| SSE `register` is not atomic | `SseBinary`'s factory | `C59_torn_violated` |
| threads encoding one frame into different buffers can send each other's checksum | `SseBinary.encode` | `C60_checksum_race_violated` |
| decoding into one message changes another that uses the same nested message | e.g. `NestedPacket.decode` | `C66_shared_part_violated` |
| a registered supplier that returns one instance makes later decodes change earlier messages | message factories | `C65_shared_supplier_violated` |

Also seen, outside any property: the BJSE frame neither computes nor checks its length and checksum;
`TradeCaptureCofirm`'s factory is private, so nothing can be registered with it; SZSE type 204715 is not registered
although its extension class exists.

## 7. Wrong programs: how to read seeded/LOG.jsonl

Each line is one edit of the model, tried in a copy outside /verif.

* `theorems_failed`: the property theorems that are no longer proved. Either their own proof fails, or a lemma they use fails. A theorem in this
  list has lost its proof; this does not by itself show that its statement is false of the edited model, because a proof can also break for
  reasons of form.
* `helper_lemmas_failed`: the lemmas at which the proofs broke first.
* `refuted_by_instance`: theorems of which a concrete instance evaluates to false in the edited model. This does show that the statement is false.
  Instances were evaluated for a part of the edits only; from m1100 on just for those of
  `RacingDecode.lean` (m1201 to m1234), of `Racing.lean` (from m1235 on) and of what C109 to C119 depend on. An empty list tells nothing.
* `theorems_tightened`: the theorems made stronger, or whose specification was made independent, because the edit was not noticed at first.
* Lines without a failed theorem are edits that were not noticed. The note says why no claim is false, or which theorems were tightened.

Not in the log: eight runs without a change, which check that the harness reports no failure then, and edits that are no well-typed model. Five of the
latter were tried again in a well-typed form (m742 as m1231, m1030 as m1232, m1613, m1614 and m1616 as m1633 to m1635, m1668 as m1713); m1115, m1591 and m1596 were not.
