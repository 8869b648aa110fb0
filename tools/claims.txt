C01 | proved | all ints and sizes, negative sizes raise ValueError
C02 | proved | all byte strings
C03 | proved | all messages whose to_bytes succeeds; identity form for messages that fit
C04 | proved | success exactly on encodable messages, ValueError otherwise
C05 | proved | soundness and completeness of the parser against the canonical encoding
C06 | partial | false of the code (IndexError escapes): negation proved; exact characterisation of the three outcomes for every byte string
C07 | proved | every encodable message and cut point
C08 | partial | false for a reused Message object: negation proved; header, ESV and selected sections depend on the bytes only
C09 | proved | all strings and messages
C10 | proved | equality is wire equality, equivalence relation; copy
C11 | proved | all call sequences
C12 | proved | all integers
C13 | proved | every object, handler (also user supplied), observers and request
C14 | proved | every object, handler and request
C15 | proved | default handler and any handler following a policy
C16 | proved | every request; last item naming a property wins
C17 | partial | false of the code (a rejected 0x61 is answered 0x50): negation proved; all other answers characterised for any handler following a policy
C18 | proved | all write-read requests whose Get codes are known
C19 | partial | false of the code: negation proved; the only raising case characterised exactly
C20 | partial | false of the code: negation proved; the actual answer characterised for every object
C21 | partial | false of the code: negation proved; the actual answer characterised for every object
C22 | proved | every object and observers, raising ones included
C23 | proved | induction over arbitrary histories
C24 | proved | refinement of a map by induction over arbitrary histories
C25 | proved | all attribute values and indices
C31 | proved | refinement of a map with insertion order, all call sequences
C32 | proved | all ints and byte triples
C34 | partial | false of the code: negation proved; exact result of every setter and exactly when it assigns
C35 | partial | false for write-read services: negation proved; characterised for all arguments
C58 | proved | all registration sequences, raising observers included
C26 | proved | all byte strings
C27 | proved | all objects with byte codes, every set iteration order
C28 | partial | false of the code: negation proved; exactly when a long map decodes correctly, and its exact contents otherwise
C29 | partial | false of the code: negation proved; exactly which conforming maps are read correctly, and the exact result otherwise
C30 | proved | all add_property sequences (codes 0x80-0xFF) and every set iteration order; maps survive every message history
C33 | partial | set_code(obj) copies the code but returns False; Database.get_object(obj) is None for every object and Device(obj) has no properties (both shown). Missing: the documented True and the lookup.
C36 | proved | 
C37 | proved | 
C38 | proved | Tables are generated from the source text by tools/gen_std.py; the whole tables are checked by kernel evaluation and lifted to all codes.
C39 | proved | 
C40 | partial | False for every object code (shown). What holds: 16 decoded entries, each 0 or readable, and short Set/announcement maps are right.
C41 | partial | Conditional rules (required_c, required_o) become prohibited (shown). The rest holds for all strings.
C51 | proved | all sequences of manager calls, any behaviour of the network
C53 | proved | all states, interface lists and failures; calls from outside the receiving threads (inside: C72)
C54 | proved | all server lists, messages, destinations and results of sendto
C55 | partial | False: a one-byte datagram, a message longer than 1024 bytes, or an exception in an observer ends the receiver. Exactly when it survives, and in-order delivery until then, are shown.
C56 | proved | all encodable messages and any number of observers
C57 | proved | all interface configurations
C71 | partial | False: servers launched before the failure stay. They are a proper prefix of the intended ones; stop() removes them.
C72 | partial | False for every server list and position. A second stop() from outside finishes the job.
C73 | partial | False with no server or when all refuse. With an open socket, True means all were tried.
C74 | partial | False when sendto raises. Holds when it returns a number.
C42 | proved | all add_object sequences on a node, and all histories of a local node
C43 | partial | False with 256 or more instances (shown; such nodes exist): the count byte wraps. With fewer it is proved for all histories of a local node, including received messages.
C44 | partial | The counts are wrong (shown for every node with a profile); the listed classes are right for all histories.
C45 | proved | all reachable nodes with up to 84 devices, all requesters; sending works
C46 | partial | False of every node with 85 or more devices (shown; such nodes exist). Up to 84 it is answered.
C47 | partial | False for instance lists with empty data (IndexError). Exact result for every other message.
C48 | proved | all reachable nodes and messages, any behaviour of the network
C49 | partial | False in every reachable node: the option plays no role at all (shown).
C50 | proved | all call sequences, with any ints
C75 | partial | False for TID 0 (shown for every reachable node); proved for all other TIDs.
C76 | partial | False (shown). What holds: all interfaces are used.
C59 | proved | all histories of a controller in which no listener raises (raising ones: C80) and request handlers leave object codes alone; name lookups: C78
C60 | partial | False: nobody is ever told of an updated node, and every list is told twice as an addition (both shown). That each list is told as an addition holds.
C61 | partial | False of every device (shown): values go to the copy of the node profile. Holds for reports of the profile itself.
C62 | partial | False (shown). Exactly the cases in which it raises are given, for all messages.
C63 | partial | False in every controller (shown): SEOJ is always 0x0EF001. The rest of the answer is right.
C67 | proved | all DEOJ; search for every reachable controller on a machine that can send
C77 | proved | all reachable controllers; no listener raises
C78 | partial | False (shown). Holds where the name resolves, for pairs, and when nothing is known.
C79 | partial | False of every controller (shown). Afterwards the node is known and linked.
C80 | partial | False of every controller with a raising first listener (shown). The listeners registered before have been told.
C81 | partial | False of every instance list (shown, with a history in which a known value is gone). Kept by all other messages.
C82 | partial | False (shown): SEOJ plays no role. Nothing but a complete list to the profile changes which objects are known.
C83 | proved | all states, messages and listeners, raising ones included
C84 | proved | all reachable controllers; no listener raises
C52 | partial | False (shown), also of the range of TIDs. Holds when no two threads are within the counter update at the same time.
C64 | partial | False (shown in three ways). Holds for a post that begins while no message is being handled and no other thread posts.
C65 | proved | all schedules of a post that begins while no message is being handled and no other thread posts
C66 | partial | False (shown). Holds for a post that begins while no message is being handled and no other thread posts.
C85 | partial | False with two receiving threads (shown). Holds with one.
C86 | partial | False (shown). Holds if the response is stored while the posting thread waits.
C68 | proved | all reachable controllers that have found the node, all reachable devices, default handler; a network that delivers
C69 | partial | False (shown): one byte, or a well-formed write-read request to the node profile of any node. Exactly which datagrams end a thread is shown; any number of others is survived.
C87 | partial | False for reads (shown). Holds for writes.
C70 | partial | Write protection holds, and so does that every answer is the one given alone but for the data read, each of which was current at some moment after the request's own writes. Reading back own writes and atomicity are false (shown); own writes are read back if nobody else writes the property meanwhile.
C88 | proved | all reachable controllers and nodes, default handlers; answers may be lost, repeated and reordered
C89 | proved | services with one property list (for 0x6E see C35); a network that delivers
C90 | partial | False (shown). Holds for objects of found nodes, data that fits, and a network that does not raise.
C91 | partial | False (shown). Code, properties, attributes and data are copied where nothing raises.
C92 | partial | False (shown): the properties are those of the standard's tables, whatever is received.
C93 | partial | False (shown): observers added before a start are lost. Holds for those added after the last one.
C94 | partial | False (shown) in the thread that receives. Holds if another thread receives the response.
C95 | partial | False (shown): a node found meanwhile makes both raise. Holds if only known addresses are stored.
C96 | partial | False (shown): removing oneself skips the next; adding at each call never ends. Holds if no listener called before is removed.
C97 | partial | False (shown): data written to database objects is inherited, and adding one to a node makes construction raise. Writing to devices is harmless.
C98 | partial | False (shown): anyone's message with the TID is taken. It is always one received with the TID that is no request.
C99 | partial | False (shown): 0x74 is treated as a request only. Holds for 0x73.
C100 | proved | The sample light of examples/device, with its own handler.
C101 | partial | False (shown): stuck for ever after a write of several bytes. Holds for single bytes.
C102 | partial | False (shown): the documented handler refuses every write. Holds if the status has been set (C102_set_partial); other properties refuse writes in every state (C102_others_partial).
C103 | partial | False (shown): an empty write raises. Nor does it survive a write-read request naming a property it does not have (C103_unknown_false). Holds for other requests.
C104 | partial | False (shown): long objects are cut, properties of 6E, 7E, 5E are dropped. Holds otherwise; texts that are not hexadecimal are never sent.
C105 | partial | False (shown): numbers with an odd number of digits raise. Holds for an even number.
C106 | partial | False (shown) of responses with two lists. Holds for all others.
C107 | proved | ast.literal_eval is a parameter; the answer is taken to arrive.
C108 | proved | Composed with C59 and C88.
C109 | proved | Objects with the handler of the library; requests and responses fit datagrams; the codes a write-read request reads exist (C19).
C110 | partial | False (shown): TIDs repeat after 65535 messages. Holds for all responses that are not that late; messages are sent from one thread, see C64 for more.
C111 | partial | False (shown): the object keeps its TID. Holds if the TID is reset.
C112 | partial | False (shown) for classes outside the tables and for properties made by users. Holds for everything from the tables.
C113 | partial | False (shown): properties of the old class stay. The properties of the new class are as new; the three maps are set aside (C40).
C114 | proved | For machines that answer; the answers to the messages sent, not posted, arrive between the steps of the program, not during a wait (for that see C98, C110).
C115 | partial | Violated when the duplicate comes late: a doubled write that arrives after a newer write of the same property brings the old value back, the TID is not looked at (C115_late_false). Proved: immediate duplicates at objects, nodes and controllers; late ones if nothing in between wrote what they write; listeners are told nothing if the message lists no instances and names no property twice. Responses of devices to a request with TID 0 get a fresh TID each time.
C116 | proved | The answer theorem is for requests with a TID other than 0: for TID 0 the node takes the next TID of its counter, which messages for other objects move on.
C117 | proved | Handlers and listeners of the user are taken to send nothing themselves. C117_dies_out bounds every execution; C117_no_new_requests and C117_rest say that requests never multiply.
C118 | proved | Deliveries succeed and answers arrive while their request is waited for (lost and late answers: C98, C110); the requests fit the device (properties known and permitted), as FitsAll says.
C119 | partial | False: the documented handler accepts reads of 0x80 only and the maps are refused (C119_maps_false). Proved: 0x80 is answered (C119_status_partial) and exactly the properties other than 0x80 are refused (C119_rest_partial).
C120 | partial | False for the manufacturer code 0x8A, which is answered as readable with no data in every history (C120_manufacturer_false). Proved for status, version and identification number. The program that owns the node is taken not to change the profile object itself.
C121 | partial | False: such a message finds no object and is dropped in every node that has no object with instance code 0 itself (C121_all_false). Proved: sent to one instance after the other it is performed by each and by nothing else.
C122 | partial | False: a node whose program does not call announce_message sends no notification with a property in it, ever, and nothing at all without being asked (C122_never_false, C122_quiet_false). Proved: a program that announces the instance list itself is heard and found with exactly its objects.
C123 | partial | False: a send_message interrupted by stop can raise AttributeError or OSError, and so can a second stop (C123_send_false, C123_stop_false). Proved: what is sent is sent once and reported as it went, anything else only once a stop has closed the socket; nothing is sent after stop has returned True; a single stop returns True and does not deadlock.
C124 | partial | False: two concurrent add_object can both return True and leave one object out of the instance list for good (C124_lost_false), add_object can raise RuntimeError (C124_raises_false), and a reader can see number and list disagree (C124_torn_false). Proved: no object is lost from the table, every list is one of objects the node had at some moment, an uninterrupted add_object leaves everything right.
C125 | proved | C125_invariant is for any invariant the owner's handlers respect; C125_shape and C125_profile for objects with the default handler; C125_rest for the remainder of the node.
C126 | proved | "As new" is equality of the whole node but for the count of calls made to the operating system; the announcement of a started controller is part of C67.
C127 | partial | False: a controller gets its own search, answers it and lists itself (C127_itself_false). Proved: an address from which no list of instances was heard is never listed (C127_unheard_partial).
C128 | partial | False: a thread that looks for its node while another thread stores a new one is ended by RuntimeError (C128_raises_false). Proved for every interleaving: the table is that of the last lists stored (C128_table_partial), every list is stored (C128_stored_partial), no thread is ended and every message is dealt with as long as the messages come from known addresses (C128_known_partial), and a thread left alone does what the model of one thread says (C128_alone_partial).
C129 | partial | False: setting the code after the data were filled in replaces the properties, so that status, version, identification and lists are empty (C129_empty_false), and its Set map names properties that are never accepted (C129_map_false). Proved: no message changes it (C129_unchanged_partial), nor do any datagrams to its node (C129_node_partial); writes are refused (C129_refused_partial) and reads answered (C129_read_partial).
C130 | partial | False: add_property stores the Property itself, so that what is written to one of two objects with the same Property is read from the other (C130_shared_false), and its object is the second (C130_owner_false). Proved for all programs that add no property twice: each object ends as if alone, with all answers (C130_apart_partial).
C131 | proved | An answer that comes 65535 orders late is taken for the one waited for (C110_wrap_false), which the hypotheses exclude; a datagram that arrives twice is obeyed twice (C131_again), which the property does not exclude. As in C118, orders are for objects the device has, with the handler of the library, and fit a datagram.
C132 | proved | Numbers are unsigned: what does not fit is stored modulo 256 to the power of the size, as C132_device says.
C133 | proved | The bounds follow from the one-byte length fields and from the node table being keyed by address. Not counted: what listeners and handlers of the program keep.
C134 | partial | Handlers that keep notes, answer and do not raise; other effects of a handler on the object are covered by C125. Missing: write-and-read requests whose second part names a property the object does not have. There the handler is called with None (C134_unknown_false); C134_asked_all gives the complete account.
C135 | partial | The last part is false: a thread that gathered the codes earlier writes them over those of a later one (C135_lost_false), and add_property may raise RuntimeError with the property added and not listed (C135_raises_false). Proved: what the maps list at every moment, that the property is there, that a call which is not interrupted leaves all maps right.
C136 | proved | Holds of every history without assumptions on handlers, listeners, peers and network. A request with TID 0 gets an answer with another TID (the condition in AnswerTo.tid; see C13, C51).
C137 | partial | False: an answer goes to the port the request came from instead of 3610 (C137_port_false), and a message of more than 1024 bytes is sent although it ends the receiving thread of the library (C137_long_false). Proved: all goes to port 3610 if the requests come from there and the program names no other port; what is at most 1024 bytes long is received as sent.
C138 | partial | False: the data of a write is stored after the handler has returned, so a handler that announces the property it is asked about announces the old value although it permits the write (C138_announce_false, for every object, property and value). Proved, for arbitrary calls: the request is performed and answered as without them (C138_calls_partial), what goes out and in which order (C138_sends), the answer goes out once unless the handler stops or restarts the node (C138_answered), other objects are untouched (C138_others); the model of Model/Calling agrees with that of the other theorems for handlers that make no calls (C138_none).
C139 | proved | For arbitrary calls other than receiving, posting, and adding or removing listeners (C94, C96 are about these): one message (C139_calls, C139_state), whole lives (C139_life), and as an instance the nodes known (C139_nodes).
C140 | partial | False: node_add is called for every valid instance list, and twice, also when nothing is new, so that each answer makes every such listener search at least twice through each interface (C140_again_false), and with one host that answers the searches on their way at least double with every exchange, for ever (C140_storm_false). Proved: exactly how many searches go out, one through each interface for each call of node_add (C140_counted_partial).
C141 | proved | For arbitrary calls other than replacing the object observed, changing who observes, and delivering a message: C141_calls, with handlers that make calls (C141_both, then C138), histories (C141_reachable).
C142 | proved | Pairs of histories with objects that differ in unreadable data: the same log of datagrams and the same node but for that data (C142_silent, C142_life, C142_secret), the same outcome of each message (C142_outcome). Handlers going by the access rules satisfy the assumption (C142_handler); one that permits everything does leak (C142_handler_false).
C143 | proved | For all histories (C143_state) and for the answer to each request (C143_answer). Observers may raise, if whether they do does not depend on who asks.
C144 | partial | False (shown for every node and every such request): asked often enough for its version in one request a node answers with more than a receiver takes, which ends it (C144_version_false). Bounds that hold: C144_bound_partial, C144_three_partial.
C145 | partial | False for objects added twice (C145_shared_false for every program, C145_lamp_false, C145_moved_false). With every object added at most once each node equals the node alone (C145_alone_partial, C145_others_partial, C145_outcome_partial), and is one of the nodes the other theorems are about (C145_reachable_partial).
C146 | partial | False of every node that has been started, whatever the program does short of start/stop (C146_forgotten_false, C146_exit_false, with C146_started). Nodes not kept by their threads are collected and their sockets closed (C146_collected_partial), among them those whose start failed (C146_failed_partial); they never come back (C146_gone_partial); after stop of all nodes the process ends (C146_stopped_partial).
C147 | partial | A device is exactly the machine `RefDevice.actual` (C147_machine_partial); nothing else of it can be observed (C147_same_partial). On all datagrams outside the list `RefDevice.Differs` that is the machine of the standard (C147_standard_partial); in the list it is not (C147_standard_false, C147_controller_false).
C148 | partial | A controller is exactly the machine `RefController.actual` from datagrams to what it knows, tells and sends (C148_machine_partial). On all datagrams outside the list `RefController.Differs` that is the machine one may expect, but for additions and updates of nodes, which listeners cannot tell apart (C148_intended_partial). In the list it is not: a value of a device is never stored, and its announcement ends the thread unless it is for the node profile (C148_value_false); a repeated instance list erases what is known (C148_forgets_false).
C149 | partial | Holds on every network of machines running the library whose programs add objects with proper codes, send no false lists themselves and read properties 0xD5 and 0xD6 first of node profiles only (C149_exists_partial). Without the last it is false: reading such a property of any object makes its value the controller's list of the node's objects (C149_reading_false), so that a storage battery made by the library becomes a light (C149_phantom_false) or vanishes (C149_erased_false).
C150 | proved |
C151 | partial | Holds as long as no datagram arrives that C147 or C148 lists as treated differently, except that listeners are told of updates as additions (C151_standard_partial). Without that it is false even in a network in which only what was sent arrives: a light asked to announce its state refuses (C151_standard_false).
C152 | proved |
C153 | proved |
C154 | partial | False: an announcement of a device ends a thread of each controller that has not found it, so does the answer to a question to a node not found, and a request that writes and reads ends a thread of a device that lacks what is read. Proved for networks in which devices speak when spoken to and controllers search and send requests to read or write at most three properties, other than instance lists, to nodes they know.
C155 | proved |
C156 | partial | False: values are stored in the object of the node that has the code the response is for, so the state of a light is shown as that of its node profile, and never anything of any other object is learned, whatever arrives. Proved: what is shown and told was held in this property by some object of this node that programs talk with; if they talk with node profiles only, by the one it is shown for.
C157 | partial | False: a light that was not found before answers, and its answer ends the thread that receives it before it is taken. Proved for networks of programs that ask node profiles, and objects of nodes they have found, and announce nothing.
C158 | partial | False: a controller that heard a device announce a property has lost its receiving thread and finds nothing any more. Proved for networks of programs that ask node profiles, and objects of nodes they have found, and announce nothing.
C159 | partial | For closed networks (`Built`): devices and controllers with standard handlers, whose programs make calls the model has. If the request has a number of its own the confirmation is one of that request (`C159_request_partial`); else of some request of the same node to the node that confirms. What is missing are nodes whose receiving threads handle requests at the same time: then another write can come between two writes of one request (C159_torn_false). For requests with at most one property that may change it makes no difference (C164, C166), and the claim holds with busy devices too (C167).
C160 | partial | False: nodes do not notice datagrams they have got before, so an old write that arrives once more undoes a confirmed one. Proved if all messages ever sent that write the property write the same value; then it stays, and is what is read.
C161 | partial | In a network in which only nodes of the library take part and no program makes up answers. C161_step_partial: any answer, also a refusal, is one step of the object asked. What is missing are nodes whose receiving threads handle requests at the same time: then the values of one answer can be of different moments (C161_torn_false). For requests with at most one property that may change it makes no difference (C164, C166), and the claim holds with busy devices too (C167).
C162 | partial | As C161. Also says that a refused write is done in part. What is missing are nodes whose receiving threads handle requests at the same time: then the values given with a refusal can be of different moments (C162_torn_false). For requests with at most one property that may change it makes no difference (C164, C166), and the claim holds with busy devices too (C167).
C163 | partial | In a network in which only nodes of the library take part and no program makes up answers; a request that is repeated by the network may take effect again later (C160). What is missing are nodes whose receiving threads handle requests at the same time: then a request about several properties need not take effect at one moment (C163_torn_false). For requests with at most one property that may change it makes no difference (C164, C166), and the claim holds with busy devices too (C167).
C164 | proved | Linearizability. C164_one_property: requests about one property, of any kind. A message that ends its thread (C19) has an effect, which is what it did before. For requests with several properties that may change it is false: C70_atomic_false, C163_torn_false.
C165 | proved | The condition cannot be dropped: C70_atomic_false, C161_torn_false.
C166 | proved | Linearizability of a device (`Model/Crowd`). The answer is sent in one step, and so is what the program announces or sends. Neither condition on the datagrams can be dropped: with transaction number 0 the device makes up a number (C117) when the answer is sent, not when the request takes effect (C166_numbers_needed); of two properties that change, values of different moments can be read (C166_one_needed).
C167 | proved | C167_one_at_a_time is the simulation; C167_snapshot, C167_refused, C167_done, C167_order are C161, C162, C159 and C163 with busy devices. The conditions on requests cannot be dropped (C161_torn_false). The threads of controllers do not overlap in this model.
C168 | proved | Wait-freedom, in the model of C166: observers and handlers of programs are not in it, nor are controllers, whose threads take a lock when an answer arrives (C65, C86). A thread may end because of a datagram (C19, C55); it is then done with it.
C169 | proved | C169_answer: datagrams of any kind. C169_read: reads. C169_steady: reads of what nobody changes. In the model of C166. The number of steps is that of C168, and cannot be smaller (an example).
C170 | proved | In the model of C166. Writes that are done before the one in question may differ; the example has one.
C171 | proved | In the model of C166. C171_open_needed and C170_open_needed: executions in which a request not finished before changes what is read.
C172 | proved | In the model of C166. C172_alone: any such datagram. C172_confirmed: writes with confirmation; if some property cannot be written the library answers 0x50 (C17).
C173 | proved | In the model of C166. C173_open_needed: an execution in which a request not finished before changes what is read.
