{
 "C01": "Holds except for null/empty values with left padding, which write nothing (C01_left_empty_writes_nothing, C01_fixed_width_violated).",
 "C16": "Shown for the SSE and SZSE frames, whose algorithms are not registered by default.",
 "C18": "set/get hold; clear is wrong in the code (C18_int_clear_violated, C18_long_clear_violated), exact behaviour in C18_*_actual.",
 "C19": "Holds for ByteBitMap; false for the other three (C19_*_violated); the exact surviving positions are proved in C19_*_partial.",
 "C31": "The limit is a fact about the code: C31_limits below it, C31_no_round_trip beyond it.",
 "C32": "Every element that is null or empty is dropped by decode (C32_violated); C32_list_received gives the exact list received, C32_no_empty_partial the lists that survive. Missing: the property for lists with empty elements, which is false.",
 "C35": "C35_headers lists how much is consumed before the key lookup for every dispatching class; C35_any covers all of them generically.",
 "C36": "The expectation is false of the code: C36_violated and the universally quantified C36_computed_fields_ignored show that decode accepts every length and checksum value.",
 "C44": "False for the 28 field-less classes and everything containing one (C44_violated); C44_terminates_iff_partial gives exactly the objects for which hashCode returns.",
 "C46": "Equal up to the payload of floating-point NaNs; C46_nan_payload_differs is the counterexample for those.",
 "C52": "False when the buffer's array extends behind the writer index (C52_violated); proved without spare bytes, for messages ending in a number, and exactly: C52_exact says which 111 classes can read beyond the writer index (those whose messages can end with text) and that the other 71 cannot.",
 "C58": "C58_race_violated shows that the hypothesis (one owner per algorithm) is needed.",
 "C59": "C59_torn_violated shows that register is not atomic.",
 "C60": "C60_checksum_race_violated shows that the hypothesis on the buffers is needed for frames with a registered checksum.",
 "C67": "From any message (C67_settles) and from any accepted bytes (C67_accepted, C67_short, C67_fixed_text); the sample protocol needs the condition on vanishing parts (C55_sample_violated).",
 "C70": "All five frames and the 14 messages with an extension field; C70_closed ties the open model to the one the other claims use.",
 "C71": "For buffers without spare capacity (C52 shows what spare capacity does to truncated texts).",
 "C72": "For buffers without spare capacity; C72_spare_violated shows that this is needed.",
 "C73": "Streams through reused buffers; C73_other_classes_violated shows that the condition on the class is needed (C73_no_checksum_violated is one case in full).",
 "C74": "Steps are statements, loop iterations, calls and returns; C74_common_frame_violated shows that the exception for frames is needed.",
 "C75": "C75_exchanged_bytes_violated and C75_unread_bytes_violated show the limits of the code's own checksums.",
 "C76": "C76_cyclic and C76_cyclic_equals_violated show what happens with cycles; trees are C45, C46 and C50.",
 "C77": "Steps are statements, loop iterations, calls and returns; C77_one_body_violated shows that suppliers must build new objects.",
 "C78": "Histories interleave setters, list operations, registrations and steps of threads; an operation is indivisible.",
 "C79": "A step is a statement, a loop iteration, a call or a return; a text or number is read or written in one step. C79_left_padded_violated shows why the length of left-padded lists enters the bound for encode.",
 "C80": "The accesses are those of Model/Access.lean; C80_writes and C80_reads show that a step changes and depends on nothing else. That race-free programs show only interleavings is the guarantee of JLS 17.4.5, which is not modelled. C80_common_frame_violated and C80_decoded_while_encoded_violated show that the condition is needed.",
 "C81": "On the heap of the history model (C78); C81_cycle is the complement of the condition of C81_setter.",
 "C82": "Lists shorter than 2^31 and buffer capacity below 2^31, as in Java. The statements are those Tests/Render.lean prints and tools/roundtrip.py compares with /repo.",
 "C83": "Buffers and texts below 2^31 bytes, as in Java. ChecksumService.verify and the registry are in C84.",
 "C84": "HashMap, Objects, ArrayList, String and the boxed types are library models. The order of class initialisation is arbitrary; a factory is initialised before its first use, as in Java.",
 "C85": "One thread; a class that is being initialised by several threads at once is locked by the JVM. Suppliers build new messages.",
 "C86": "Texts and buffers below 2^31 bytes, as in the JVM. Services supplied by the application have no text; C70 is about those.",
 "C87": "For messages without wrongly typed fields (all that Java code can build, C78); application-supplied codecs are not covered.",
 "C88": "The bytes for all object graphs without cycles behind the message; what a message shows for well-typed messages (all that Java code can build, C78).",
 "C89": "The JVM's rule for class initialisation (a thread that needs a class being initialised by another waits) is part of the model; map operations are indivisible as in C58 and C59.",
 "C90": "Buffers in the sense of Netty's AbstractByteBuf with heap memory; read-only and composite buffers are not modelled.",
 "C91": "The receiver is a specification (Spec/Cut.lean) of a length-field frame decoder; Netty's own class is not modelled. C91_disagree_violated: for bytes no encode produced, decode and such a receiver can disagree.",
 "C92": "The queue (Spec/MsgQueue.lean) is application code around encode and decode. Holds for every class with a field other than fixed-width texts; C92_ghost_violated shows what happens for the others.",
 "C93": "One step of a thread is one statement, loop iteration, call or return; an interruption inside a statement (between two bytes of one text field) is not modelled. (4) needs, as C74, that messages encoded at the same time have no frame in common; (1)-(3) do not. C93_reader_violated is the limit: readers must not look before the call returns.",
 "C94": "The allocator is any function of the buffer and the number of bytes needed, per call; only arrays of bytes are allocated in the model: OutOfMemoryError from the allocation of String.getBytes or of objects is an interruption in the sense of C93. OutOfMemoryError in decode (new objects, new strings) is not modelled (C62 bounds what decode builds).",
 "C95": "Steps are statements and loop iterations (as C77); an Error inside a library call that reads one value is placed before or after the step. Suppliers build new objects. C95_left_over_violated shows that part (4) cannot be strengthened to equal fields; this is the rule of C29.",
 "C96": "HashMap is modelled after JDK 11 (Model/Keys.lean): entries with stored hash codes in one list instead of buckets, no trees, numbers as values, no iteration. Single-threaded use. C96_encode_loses_violated and C96_not_hashable say where messages cannot be used as keys.",
 "C97": "Stronger than C66_others: any sharing, any suppliers, and bodies are not counted among the parts that are written to. C97_nested_violated: nested messages are decoded into in place.",
 "C98": "Crash points are numbers of bytes; the file is a list of bytes of which a crash leaves a prefix. C98_torn_zeros_violated, C98_not_cut_violated: what the reader cannot see.",
 "C99": "Loads and stores of the field are single steps (the Java memory model allows more for unsynchronised fields). C99_lost_update_violated: two writers.",
 "C100": "The texts of all factories and of fromValue; two different unknown ids give different texts except null and \"null\" (C100_null_violated).",
 "C101": "Exact bits of every written byte and of every read, for any bytes and any remaining capacity.",
 "C102": "Damage outside the length field; damage inside it can cost more than its own frame (C102_length_violated).",
 "C103": "Setters of list fields, of computed fields and with null are excluded or named; counterexamples for each are proved.",
 "C104": "Whether hashCode returns at all is C44.",
 "C105": "Left-padded empty texts have no bytes at all (C01).",
 "C106": "C106_header covers numbers in front of the length field of frames whose body has no computed fields; what checksum results is C34.",
 "C109": "Steps are statements and loop iterations (as C77); observers read between steps and see the latest assignment. Java promises this only to observers that synchronise with the decoding thread; without that they may also see older values. C109_torn_violated and C109_list_violated show what an observer cannot rely on.",
 "C110": "An access is indivisible and sees the latest assignment, as in C103. Other threads replace what a field refers to; they do not change the insides of lists and nested messages, so it makes no difference when a value that has been read is compared, hashed or printed. C110_equals_violated and C110_torn_violated show what callers cannot rely on.",
 "C111": "An access is indivisible and sees the latest assignment, as in C103, but others may change parts at any depth. The message that was seen is specified by the relation Saw (Spec/RacingHeap.lean), apart from the run. Setters of lists are excluded from C111_mixture (a list field is read twice, see C103), not from C111_kept. C111_shared_violated and C111_null_violated show what callers cannot rely on.",
 "C112": "Reads are results chosen freely among what Spec/WeakHeap.lean (Readable, MaySee) allows, which is at least what the Java memory model allows for plain fields of objects that were constructed before; it is not a model of the memory model itself (no happens-before order restricts the reads), so the theorems hold for more executions than Java has, and the two violated statements show executions JLS 17.4 and 17.7 allow. Reads of a list field, of elements of lists and of computed fields are ordinary.",
 "C113": "The other threads are any function of the memory (Acts), so nothing is assumed about them, except that they leave length and checksum of the frame alone. Calls of size() and get(i) on a list are indivisible: the fields inside ArrayList are not modelled. C113_length_violated shows that this is needed; C113_count_violated and C113_throws_violated show what callers cannot rely on.",
 "C114": "C114_reads and C114_quiet assume nothing. C114_position, C114_kind and C114_others assume that the others leave message types and bodies alone (Steady); C114_setters shows that all other setters are among what they may do, and C114_type_violated and C114_body_violated that the assumption is needed. C114_outcome and C114_sent assume also that lists and parts are not set (Calm; C114_setters_calm), which C114_null_violated shows to be needed. The buffer is used by the decoding thread only; add on a list is indivisible.",
 "C115": "The memory that each access finds is arbitrary (Memory), so setters, weak reads and new objects are covered; C115_toString assumes only that no list contains itself, C115_exceptions that objects keep their class and lists their size (WellKept). If the size of a list changes meanwhile, ArrayList throws ConcurrentModificationException, which is not modelled: the theorems then say what holds if a value is returned all the same.",
 "C116": "The other threads are any function of the memory that leaves alone the objects of the message and the new ones (Elsewhere). For decode, objects that the others create are counted among those in memory at the start, unreachable, because memory addresses are handed out in order; for encode, C116_encode_making lets the others create any number of objects during the call, and so does C116_decode_making for the 150 classes without lists, parts and bodies. HListsFit says that no list has more than 2147483647 elements, as in Java. For decode the factories make a new object each time. Calls of size(), get and add of a list are indivisible.",
 "C117": "Which fields the others set, and to which values, is a parameter V (message, field and value); Lightly says that they set only those, only to these values, which are not references, and only if the field is neither a list, a part or body, nor a message type. The outcome alone under more disturbance (contents of lists changed as well) is C114. Objects that the others create are counted among those in memory at the start. Calls of add of a list are indivisible.",
 "C118": "The program is any function from what it has seen to the next operation; it can use only values it knows. With nobody else (Spec/OwnProgram.lean) encode and decode are those of C64 and C65, equals, hashCode and toString those of C76. The hypothesis hfit says that no list of the program gets more than 2147483647 elements, as in Java. Objects that the others create are counted among those in memory at the start. ConcurrentModificationException, which equals, hashCode and toString of a list may throw when its size changes, cannot occur here, as nobody else changes the lists. Calls of size(), get and add of a list are indivisible.",
 "C119": "Limited says what the others can do: as in Java, references cannot be made up. Objects of a thread are never taken away (no garbage collection is observable). HListsFit says that no list has more than 2147483647 elements, as in Java. For decode the factories make a new object each time. Calls of size(), get and add of a list are indivisible. In C119_history and C119_encode_unshared only the lists of the message itself have to be no longer than that (listsFit)."
}