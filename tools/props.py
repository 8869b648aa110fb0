"""Source of properties.jsonl: run `python3 tools/props.py` in /verif to regenerate it."""
import json, os
P = []
def p(id, title, statement, quantifier, why, anchors):
    P.append(dict(id=id, title=title, statement=statement, quantifier=quantifier, why_tests_cant=why, anchors=anchors))

# --- wire format -----------------------------------------------------------
p("C01", "Integer to bytes to integer",
  "Bytes.from_int(v, n) always returns exactly n bytes, the i-th byte is the base-256 digit of weight 256^(n-1-i) of v in two's complement, and Bytes.to_int of it is v mod 256^n (so it is v whenever 0 <= v < 256^n).",
  "every Python int v (negative and arbitrarily large included) and every size n",
  "The tests sample 256 values for sizes 1-4; the law is over unbounded integers and sizes.",
  ["uecho/util/bytes.py:Bytes.from_int", "uecho/util/bytes.py:Bytes.to_int"])
p("C02", "Bytes to integer to bytes",
  "Bytes.to_int(b) is the big-endian value of b, is below 256^len(b), and Bytes.from_int(Bytes.to_int(b), len(b)) == b; hence two byte strings of equal length with the same integer value are equal.",
  "every byte string b of every length", "Infinite domain of byte strings.",
  ["uecho/util/bytes.py:Bytes.from_int", "uecho/util/bytes.py:Bytes.to_int"])
p("C03", "Message encode/decode round trip",
  "If to_bytes() of a message succeeds, parse_bytes of the result on a fresh Message succeeds and yields the same ESV and the same properties, in order, in the section(s) the ESV selects, with TID reduced mod 2^16 and SEOJ/DEOJ mod 2^24; the other section(s) come back empty.",
  "every message: all TIDs, EOJs, ESVs, and property lists of any length and content",
  "Tests use two literal messages; the claim ranges over all property lists and all ESVs.",
  ["uecho/protocol/message.py:Message.to_bytes", "uecho/protocol/message.py:Message.parse_bytes"])
p("C04", "to_bytes succeeds exactly on encodable messages",
  "to_bytes() either returns bytes or raises ValueError, and it returns bytes exactly when ESV is 0..255 and, in the section(s) selected by the ESV, there are at most 255 properties, each with code 0..255 and at most 255 data bytes. It never emits a truncated count, code or length.",
  "every message", "Boundary behaviour over all counts, codes and lengths simultaneously.",
  ["uecho/protocol/message.py:Message.to_bytes", "uecho/protocol/message.py:Message.__append_property_bytes"])
p("C05", "The parser is sound: an accepted datagram is the canonical encoding plus trailing bytes",
  "If parse_bytes(b) succeeds then b is to_bytes() of the parsed message followed by some (ignored) trailing bytes: every property's data really lies inside the datagram, property counts equal the OPC bytes and data lengths equal the PDC bytes.",
  "every byte string", "Tests cannot enumerate all byte strings; over-reads and mis-slicing only show at particular offsets.",
  ["uecho/protocol/message.py:Message.parse_bytes", "uecho/protocol/message.py:Message.__parse_property_bytes"])
p("C06", "parse_bytes reports malformed input only through ParserError",
  "On every byte string parse_bytes either returns True or raises Message.ParserError. (The code violates this: some truncated inputs escape as IndexError; the exact set of outcomes is characterised instead.)",
  "every byte string", "Requires all truncation points of all inputs.",
  ["uecho/protocol/message.py:Message.parse_bytes", "uecho/protocol/message.py:Message.ParserError"])
p("C07", "Truncated messages are never accepted",
  "No proper prefix of an encoded message is accepted by parse_bytes: it raises.",
  "every encodable message and every truncation point", "All cut points of all messages.",
  ["uecho/protocol/message.py:Message.parse_bytes"])
p("C08", "Parsing depends only on the bytes",
  "After a successful parse_bytes(b), the message's fields are a function of b alone, whatever the Message object held before. (Violated for a reused Message: the property lists of the section not selected by the new ESV keep their old contents; the header, ESV and selected section do depend on b only.)",
  "every prior message state and every byte string", "Needs all prior histories of the object.",
  ["uecho/protocol/message.py:Message.parse_bytes"])
p("C09", "Hexadecimal text round trip",
  "to_string() is the upper-case hex of to_bytes(), and parse_hexstring(to_string()) behaves exactly like parse_bytes(to_bytes()); hex decoding ignores case and ASCII whitespace between bytes and raises ValueError on everything else; Hex.from_string is the big-endian value of the digits.",
  "every message, every byte string and every character string", "Infinite domain of strings.",
  ["uecho/protocol/message.py:Message.to_string", "uecho/protocol/message.py:Message.parse_hexstring", "uecho/util/hex.py:Hex.from_string", "uecho/util/bytes.py:Bytes.from_string"])
p("C10", "Message equality and copying",
  "== on encodable messages is an equivalence relation which holds exactly when the messages put the same bytes on the wire; Message(msg) equals msg and keeps from_addr and to_addr.",
  "every pair/triple of encodable messages", "Relation over all pairs.",
  ["uecho/protocol/message.py:Message.__eq__", "uecho/message.py:Message.__init__"])
p("C11", "Message builder API",
  "add_property/add_set_property/add_get_property return True and append exactly one property with the given code and data when given a Property, an int or a (code, data) pair, and otherwise return False and leave the message unchanged; any sequence of such calls leaves the accepted properties in call order.",
  "every argument value and every sequence of calls", "Ranges over call histories.",
  ["uecho/message.py:Message.add_property", "uecho/message.py:Message.add_set_property", "uecho/message.py:Message.add_get_property", "uecho/protocol/message.py:Message.add_property"])
# --- ESV ---------------------------------------------------------------------
p("C12", "ESV classification",
  "Every ESV is exactly one of request/response; the predicates is_request, is_write_request, is_read_request, is_notification_request, is_write_response, is_read_response, is_notification, is_notification_response, is_response_required, is_write_read_request, is_write_read_response hold exactly for the ECHONET Lite codes of their class, and every service that requires a response is a request; the named codes are all different, and those of responses and refusals are the code of the request plus and minus 0x10; a message no service has been given to is of none of these classes but response.",
  "every integer service code", "All integers; the tests do not exercise ESV predicates.",
  ["uecho/protocol/esv.py:ESV"])
# --- object request handling --------------------------------------------------
p("C13", "Response addressing",
  "Whenever an object answers a request, the response has the request's TID, its SEOJ is the request's DEOJ and its DEOJ is the request's SEOJ.",
  "every object state, every request handler (user-defined included), every request", "All handlers and states.",
  ["uecho/object.py:Object.message_received"])
p("C14", "Response lists mirror the request",
  "Whenever an object answers, the response carries the same property codes, in the same order and section (properties / set_properties / get_properties), as the request; the sections not selected by the ESV are empty.",
  "every object state, handler and request", "All property lists, duplicates included.",
  ["uecho/object.py:Object.message_received"])
p("C15", "Read requests return current values",
  "For a read request (0x62) to an object with the default handler, every known readable property is returned with its current data, every unknown or unreadable one with empty data; the answer is 0x72 iff all are readable and 0x52 otherwise; the object is unchanged.",
  "every object state and every list of requested codes", "All states and request lists.",
  ["uecho/object.py:Object.message_received", "uecho/super_object.py:SuperObject.property_read_requested"])
p("C16", "Write requests update exactly the writable properties",
  "For a write request (0x60/0x61) to an object with the default handler, after processing each property holds the data of the last item of the request naming it if it is known and writable, and its old data otherwise; no property is added or removed and no attribute changes.",
  "every object state and every list of write items, duplicates included", "All states and request lists.",
  ["uecho/object.py:Object.message_received", "uecho/super_object.py:SuperObject.property_write_requested"])
p("C17", "Write services answer with the right ESV",
  "0x60 is answered by nothing when every item is accepted and by 0x50 otherwise; 0x61 is answered by 0x71 when every item is accepted and by 0x51 otherwise. (The second half is violated: a rejected 0x61 is answered with 0x50.)",
  "every object state, handler and write request", "All request lists and acceptance patterns.",
  ["uecho/object.py:Object.message_received"])
p("C18", "Write-read: the read part observes the write part",
  "For a write-read request (0x6E) with the default handler whose Get codes are all known, the object's data after the request is as for the write part alone, and each readable Get item returns the value after all writes of the same request; the answer is 0x7E iff every item of both parts is accepted, else 0x5E.",
  "every object state and every pair of item lists", "All states and lists.",
  ["uecho/object.py:Object.message_received"])
p("C19", "Handling a request never raises",
  "With the default handler, message_received never raises, whatever the request. (Violated: a write-read request whose Get part names an unknown property raises AttributeError, after its writes have been applied; it is shown that this is the only case.)",
  "every object state and every request", "Needs every combination of unknown codes and ESVs.",
  ["uecho/object.py:Object.message_received", "uecho/super_object.py:SuperObject.property_read_requested"])
p("C20", "Notification requests are answered with the property values",
  "A notification request (0x63) for readable properties is answered by a notification (0x73) carrying their current data. (Violated: any 0x63 naming at least one property is answered by the error 0x53 with empty data.)",
  "every object state, handler and request", "All states and request lists.",
  ["uecho/object.py:Object.message_received", "doc/device_overview.md"])
p("C21", "Notifications requiring a response are acknowledged",
  "A 0x74 notification received by an object with a handler is acknowledged with 0x7A. (Violated: it is acknowledged only if it carries no property.)",
  "every object state, handler and request", "All states and request lists.",
  ["uecho/object.py:Object.message_received"])
p("C22", "Only requests have effects on an object",
  "A message whose ESV is not a request never changes an object's property data and never produces a response; neither does any message when no handler is set; each registered observer is still notified exactly once, in registration order.",
  "every object state, handler and message", "All ESV codes (unknown ones included) and states.",
  ["uecho/object.py:Object.message_received", "uecho/protocol/subject.py:Subject.notify"])
p("C23", "Write protection over whole histories",
  "No sequence of received messages changes the data of a property that is not write-enabled, adds or removes properties, or changes any attribute, of an object with the default handler.",
  "every sequence of messages of any length", "Unbounded histories.",
  ["uecho/object.py:Object.message_received", "uecho/super_object.py:SuperObject.property_write_requested"])
p("C24", "An object refines a map: reads return the latest accepted write",
  "After any sequence of received messages, reading a readable property returns the data of the most recent write item naming it in the history if it is writable, and the initial data otherwise.",
  "every initial object and every sequence of messages", "Unbounded histories; refinement.",
  ["uecho/object.py:Object.message_received"])
# --- property attributes and maps ------------------------------------------------
p("C25", "Property attribute rules",
  "read/write/announce-enabled holds iff the attribute is REQUIRED or OPTIONAL, -required iff it is REQUIRED, is_mandatory iff some attribute is REQUIRED; set_attribute changes only the addressed attribute (GET, SET, ANNO or the Python negative index of one) and get_attribute reads it back, all other indices raising IndexError.",
  "every attribute value and index (all ints)", "All integers.",
  ["uecho/property.py:Property"])
p("C26", "Property map decoder is total",
  "property_map_codes never raises, whatever the data; a successful result has exactly as many entries as the first data byte says.",
  "every byte string", "All byte strings.", ["uecho/property.py:Property.property_map_codes"])
p("C27", "Short property maps round trip",
  "When at most 15 properties are enabled, the corresponding map property of a SuperObject decodes (property_map_codes) to exactly the set of enabled codes, each once, whatever order Python iterates sets in.",
  "every set of at most 15 codes and every set iteration order", "All subsets and iteration orders.",
  ["uecho/super_object.py:SuperObject._update_property_map_properties", "uecho/property.py:Property.property_map_codes"])
p("C28", "Long property maps round trip",
  "When 16 or more properties (codes 0x80-0xFF) are enabled the map still decodes to exactly the enabled codes. (Violated: exact characterisation - it does iff there are exactly 16 codes, all below 0xC0.)",
  "every set of 16 to 128 codes and every set iteration order", "2^128 subsets.",
  ["uecho/super_object.py:SuperObject.__set_property_map_property", "uecho/property.py:Property.property_map_codes"])
p("C29", "Maps sent by conforming peers are read correctly",
  "property_map_codes returns exactly the codes of a property map encoded as the ECHONET Lite specification prescribes. (Violated for maps of 16 or more codes with a code of 0xC0 or more: those codes are lost and replaced by 0.)",
  "every set of codes 0x80-0xFF", "2^128 subsets.", ["uecho/property.py:Property.property_map_codes"])
p("C30", "Maps follow every add_property",
  "After any sequence of add_property calls on a SuperObject that ends with the three map properties present, each map property with at most 15 enabled codes decodes to exactly the codes currently enabled for it (announce: required ones; get, set: enabled ones).",
  "every sequence of add_property calls", "Unbounded histories, replacement of properties included.",
  ["uecho/super_object.py:SuperObject.add_property", "uecho/super_object.py:SuperObject._update_property_map_properties"])
# --- object ----------------------------------------------------------------------
p("C31", "The property store is a map",
  "add_property / get_property / get_property_data / has_property / set_property_data / set_property_integer / set_property_string behave as a finite map from codes to properties: each reads back the last value stored for that code, is unaffected by operations on other codes, has no duplicate codes and keeps first-insertion order; operations on absent codes return None/False and change nothing.",
  "every sequence of operations", "Unbounded histories.",
  ["uecho/object.py:Object.add_property", "uecho/object.py:Object.get_property", "uecho/object.py:Object.set_property_data"])
p("C32", "Object codes decompose and recompose",
  "set_code of an int stores it; set_code((g,c,i)) with byte components and set_code(g<<16|c<<8|i) agree; group_code, class_code and instance_code are the three bytes of the code; is_code/is_group/is_class hold exactly when the corresponding bytes agree.",
  "every integer code and every tuple", "All integers and tuples.",
  ["uecho/object.py:Object.set_code", "uecho/object.py:Object.is_code", "uecho/object.py:Object.group_code"])
p("C33", "set_code and database lookup accept an Object",
  "set_code(obj) copies obj's code and returns True, and Database.get_object(obj) finds the standard object of obj's class. (Violated: set_code(obj) copies the code but returns False, so Database.get_object(obj) is None for every Object and Device(obj) has no properties.)",
  "every object", "All codes.", ["uecho/object.py:Object.set_code", "uecho/std/database.py:Database.get_object", "uecho/std/object.py:StandardObject.set_code"])
p("C34", "Assigning group/class/instance code replaces it",
  "After obj.group_code = v (class_code, instance_code) the getter returns v & 0xFF and the other two components are unchanged. (Violated: the setters OR into the old value; they are right iff the old component has no bit outside v.)",
  "every old code and every assigned value", "All pairs of integers.",
  ["uecho/object.py:Object.group_code", "uecho/object.py:Object.class_code", "uecho/object.py:Object.instance_code"])
p("C35", "Requests built by Object.send_message/post_message carry the given properties",
  "Object.send_message/post_message accept exactly lists of (int, bytes) pairs; the datagram then sent decodes to a message with the object's code as DEOJ, the given ESV and the given properties. (Violated for write-read ESVs, whose datagram carries no property at all.)",
  "every ESV and every property list", "All ESVs and lists.",
  ["uecho/object.py:Object.__create_message", "uecho/object.py:Object.send_message", "uecho/object.py:Object.post_message", "uecho/property.py:Property.send_message"])
# --- database ----------------------------------------------------------------------
p("C36", "Database lookup depends only on group and class",
  "get_object returns the same standard object for an int code and for the (group, class) or (group, class, instance) tuple, for every instance code, and None for unknown classes and malformed codes.",
  "every integer code and tuple", "2^24 codes and beyond.",
  ["uecho/std/database.py:Database.get_object"])
p("C37", "Manufacturer lookup agrees on ints and bytes",
  "get_manufacturer(b) for bytes equals get_manufacturer(Bytes.to_int(b)); every listed code is found with its own code; unlisted codes give None.",
  "every integer and byte string", "Infinite domain.",
  ["uecho/std/database.py:Database.get_manufacturer", "uecho/std/manufacturers.py"])
p("C38", "The standard database is well formed",
  "In every standard class the table key equals the object's (group, class), every property code is in 0x80-0xFF, codes are not repeated after loading, and a class defined in both tables is taken from the MRA table.",
  "every entry of the shipped tables", "The tables have about 1800 entries, never enumerated by the tests.",
  ["uecho/std/objects.py:get_all_std_objects", "uecho/std/objects_mra.py", "uecho/std/objects_scsl.py"])
p("C39", "Standard devices have the super class and class properties",
  "Device(code) has exactly the property codes of the super class and of its class, with the class's attributes where both define a code, and the super class's otherwise.",
  "every object code", "2^24 codes.", ["uecho/std/object.py:StandardObject.set_code", "uecho/device.py:Device", "uecho/super_object.py:SuperObject._set_object_properties"])
p("C40", "The Get property map of a standard device lists its readable properties",
  "For every standard device, property_map_codes of property 0x9F is the set of its readable properties. (Violated for every object code: there are always more than 16 readable properties and the map lists at most 16.)",
  "every object code", "2^24 codes.", ["uecho/super_object.py:SuperObject.__set_property_map_property", "test/super_object_test.py"])
p("C41", "Access rules of the tables are honoured",
  "A property whose table entry says required/mandatory or optional (in any letter case) for an access is enabled for it; one that says notApplicable or '-' is not. Conditional entries (required_c, required_o) are enabled too. (The last part is violated: they become prohibited.)",
  "every attribute string", "All strings.", ["uecho/std/reader.py:Property.__to_attribute"])
# --- nodes ----------------------------------------------------------------------------
p("C42", "Node object table",
  "After any sequence of add_object calls, get_object(code) returns the last object added under that code and None otherwise, get_object of an int and of the corresponding tuple agree, has_object(code) iff get_object(code) is not None, and objects lists each code once. After any set_address calls the address is the last pair given; a node that was given none has the empty ip and port 0.",
  "every sequence of add_object calls and every lookup", "Unbounded histories.",
  ["uecho/node.py:Node"])
p("C43", "The node profile's instance list tracks the node",
  "After any sequence of add_object calls on a LocalNode, properties 0xD3, 0xD5 and 0xD6 of its node profile describe exactly the non-profile objects in order: D3 the count (3 bytes), D5 = D6 the count followed by their 3-byte codes.",
  "every sequence of add_object calls", "Unbounded histories.",
  ["uecho/local_node.py:LocalNode.add_object", "uecho/node_profile.py:NodeProfile.__update_instance_properties"])
p("C44", "The node profile's class list tracks the node",
  "After any sequence of add_object calls, 0xD4 is the number of distinct classes of the node and 0xD7 is the number of listed classes followed by each distinct non-profile (group, class) once. (Violated: the count is the number of objects; the listed classes themselves are right.)",
  "every sequence of add_object calls", "Unbounded histories.",
  ["uecho/node_profile.py:NodeProfile.__update_class_properties"])
p("C45", "Discovery round trip",
  "The answer of a LocalNode to a search, parsed by RemoteNode.parse_message on the other side, yields a node having exactly the node profile and every device of the local node.",
  "every set of devices that fits a message (at most 84)", "All device sets.",
  ["uecho/remote_node.py:RemoteNode.parse_message", "uecho/local_node.py:LocalNode.message_received", "uecho/messages.py:SearchMessage"])
p("C46", "Nodes with many devices can still be discovered",
  "A search request to a LocalNode is answered however many devices it has. (Violated: with 85 or more devices building the answer raises ValueError; with at most 84 it is answered.)",
  "every number of devices", "All counts.",
  ["uecho/node_profile.py:NodeProfile.__update_instance_properties", "uecho/protocol/message.py:Message.__append_property_bytes"])
p("C47", "RemoteNode.parse_message is safe",
  "parse_message returns True or False on every message and adds no object when it returns False; when True it adds exactly the listed codes. (Violated: an instance list property with empty data raises IndexError; nothing else does.)",
  "every message", "All messages.", ["uecho/remote_node.py:RemoteNode.parse_message"])
p("C48", "Local node dispatch",
  "A LocalNode answers a request with at most one message; it is addressed to the sender of the request unless it is a notification, which is multicast; a message for an object the node does not have produces nothing and changes nothing.",
  "every node state and message", "All states and messages.",
  ["uecho/local_node.py:LocalNode.message_received"])
p("C49", "Own messages are ignored when IGNORE_SELF_MESSAGE is set",
  "With the option enabled a message coming from the node's own address has no effect. (Violated: the self test never succeeds, so the option has no effect at all.)",
  "every node state and message", "All states and messages.",
  ["uecho/local_node.py:LocalNode._is_self_message", "uecho/local_node.py:LocalNode.message_received"])
p("C50", "Options are independent bits",
  "After any sequence of set_enabled calls, is_enabled(bit) is the last value set for that bit.",
  "every sequence of set_enabled calls", "Unbounded histories.", ["uecho/local_node.py:LocalNode.set_enabled", "uecho/local_node.py:LocalNode.is_enabled"])
# --- transport ---------------------------------------------------------------------------
p("C51", "Transaction identifiers",
  "Automatically assigned TIDs are always 1..65535, never 0; the n-th one is ((n-1) mod 65535)+1, so any 65535 consecutive ones are pairwise distinct; a message with a non-zero TID keeps it.",
  "every number of messages sent", "Wrap-around after 65535 sends; unbounded histories.",
  ["uecho/frame/manager.py:Manager.__next_TID", "uecho/frame/manager.py:Manager.send_message", "uecho/frame/manager.py:Manager.announce_message"])
p("C52", "TIDs are unique under concurrent senders",
  "Two threads sending at the same time never get the same automatic TID. (Violated: the counter update is not atomic, and an automatic TID can even be 65536; it holds when no two threads are within the counter update at the same time.)",
  "every interleaving of two or more senders", "All schedules.", ["uecho/frame/manager.py:Manager.__next_TID"])
p("C53", "Transport life cycle",
  "stop(), called from outside the receiving threads, leaves no server whatever the state; start() leaves exactly one unicast and one multicast server per interface address, all started, when it returns True, and none when it returns False; repeated starts do not accumulate servers; after stop(), send_message returns False and nothing is sent.",
  "every sequence of start/stop calls and every interface list", "Unbounded histories and failures.",
  ["uecho/frame/manager.py:Manager.start", "uecho/frame/manager.py:Manager.stop", "uecho/frame/server.py:Server.start", "uecho/frame/server.py:Server.stop"])
p("C54", "Sending",
  "send_message to a (host, port) pair sends the message's encoding through at most one working unicast server and returns True iff one sent it; announce_message sends it to 224.0.23.0:3610 through every unicast server; both leave the message's content other than TID and to_addr unchanged.",
  "every server list, message and destination", "All configurations.",
  ["uecho/frame/manager.py:Manager.send_message", "uecho/frame/manager.py:Manager.announce_message", "uecho/frame/unicast_server.py:UnicastServer"])
p("C55", "A malformed datagram does not stop the receiver",
  "After any datagram the receiving thread keeps serving. (Violated: any malformed datagram, and any exception in an observer, ends the receiving loop for good; it is shown that these are the only causes and that until then every datagram is delivered once, in order.)",
  "every sequence of datagrams", "Unbounded histories of arbitrary bytes.",
  ["uecho/frame/server.py:Server.run"])
p("C56", "Every message that fits a datagram buffer is delivered intact",
  "A message whose encoding is at most 1024 bytes sent to a live receiver is delivered to every observer, in order, equal to what was sent and stamped with the sender's address; a longer one is never delivered as a different message.",
  "every encodable message", "All messages around the 1024-byte limit.",
  ["uecho/frame/server.py:Server.run"])
p("C57", "Interface selection",
  "get_all_ipaddrs returns every IPv4 address of every interface except 127.0.0.1, in order.",
  "every interface configuration", "All configurations.", ["uecho/frame/interface.py:Interface.get_all_ipaddrs"])
p("C58", "Observers",
  "add_observer never registers an observer twice and keeps registration order; notify calls each registered observer exactly once, in that order, until one raises.",
  "every sequence of add_observer calls", "Unbounded histories.", ["uecho/protocol/subject.py:Subject"])
# --- controller -----------------------------------------------------------------------------
p("C59", "Found nodes",
  "After any sequence of received messages, the controller's nodes contain exactly one node per IP address from which a valid instance list was received as a read response or notification to 0x0EF001, and that node lists the instances of the latest such message; get_node finds it by its address.",
  "every sequence of received messages", "Unbounded histories.",
  ["uecho/controller.py:Controller.message_received", "uecho/controller.py:Controller._add_found_node", "uecho/controller.py:Controller.get_node"])
p("C60", "Listeners: first sight is an addition, later ones are updates",
  "The first valid instance list from an address triggers node_add, later ones node_updated. (Violated: node_updated is never called; node_add is called every time.)",
  "every sequence of received messages", "Unbounded histories.",
  ["uecho/controller.py:Controller.__notify_node_updated", "uecho/controller.py:Controller._add_found_node"])
p("C61", "Property values reported by a device are stored on that device's object",
  "After a read response or notification from object X of a known node, the controller's copy of X holds the reported data. (Violated: the data is stored on the object named by DEOJ, i.e. the remote node profile.)",
  "every controller state and message", "All states and messages.",
  ["uecho/controller.py:Controller._update_properties"])
p("C62", "Receiving a message never raises in a controller",
  "Controller.message_received returns normally for every decodable message. (Violated: 0x72/0x73 messages to a DEOJ other than 0x0EF001 raise AttributeError, and so do reports from unknown nodes and empty instance lists.)",
  "every controller state and message", "All states and messages.",
  ["uecho/message.py:Message.is_node_profile_message", "uecho/controller.py:Controller._update_properties", "uecho/controller.py:Controller.message_received"])
p("C63", "Answers of devices hosted by a Controller",
  "A device added to a Controller answers like one added to a LocalNode: the answer's SEOJ is the device's code. (Violated: the Controller overwrites SEOJ with 0x0EF001.)",
  "every controller state and request", "All states and messages.",
  ["uecho/controller.py:Controller.send_message", "uecho/controller.py:Controller.announce_message"])
p("C64", "post_message returns only a response to its own request",
  "Whatever the schedule, the message returned by post_message has the TID of the posted request. (Violated when two threads post concurrently, when a late response to the post before is being handled while a post begins, and when a TID-0 message arrives before the request gets its TID; it holds for a post that begins while no message is being handled and no other thread posts.)",
  "every interleaving of posters, receivers and timeouts", "All schedules.",
  ["uecho/controller.py:Controller.post_message", "uecho/controller.py:Controller.message_received"])
p("C65", "post_message returns the response if one arrived in time",
  "If, after the request got its TID and before post_message returns, a non-request message with this TID is processed, post_message, unless sending failed, returns a message with this TID, even if it was processed before the poster started to wait.",
  "every interleaving of one poster, begun while no message is being handled, with receivers, senders and timeouts", "All schedules; lost wake-ups.",
  ["uecho/controller.py:Controller.post_message", "uecho/controller.py:Controller.message_received"])
p("C66", "Receivers survive concurrent posts",
  "No interleaving of post_message with message reception raises in the receiving thread. (Violated, even with a single posting thread: a receiver that saw an expired post can dereference the fresh post's request before it is set; it holds for a post that begins while no message is being handled.)",
  "every interleaving", "All schedules.", ["uecho/controller.py:Controller.post_message", "uecho/controller.py:Controller.message_received"])
p("C67", "Request builders and search",
  "SearchMessage/ReadRequest/WriteRequest/WriteResponseRequiredRequest/WriteReadRequest carry the documented ESV, SEOJ 0x0EF001 and the given DEOJ; search() multicasts a read request for 0xD6 to 0x0EF001 on every interface.",
  "every DEOJ and controller state", "All codes and states.",
  ["uecho/messages.py", "uecho/controller.py:Controller.search"])
p("C68", "End-to-end read and write",
  "Against a reachable LocalNode hosting an object, a controller's read request decodes at the controller to a response with the object's current data and a write request (0x61) for writable properties makes a later read return the written data.",
  "every device state, property and data that fit a datagram", "Composition of codec, dispatch, object and transport over all values.",
  ["uecho/controller.py:Controller.post_message", "uecho/local_node.py:LocalNode.message_received", "uecho/object.py:Object.message_received"])
p("C69", "One datagram cannot disable a node",
  "No single datagram makes a node stop answering later requests. (Violated: a one-byte datagram does, and so does a well-formed write-read request with an unknown Get property.)",
  "every datagram", "All datagrams.", ["uecho/frame/server.py:Server.run", "uecho/object.py:Object.message_received"])
p("C70", "Write protection and atomicity under concurrent receivers",
  "When several receiving threads process messages for one object, no interleaving changes a property that is not write-enabled; and a write-read request reads back its own writes. (The second half is violated under concurrency.)",
  "every interleaving of message handlers at property granularity", "All schedules.",
  ["uecho/object.py:Object.message_received", "uecho/frame/server.py:Server.run"])
p("C71", "A start() that fails leaves nothing behind",
  "If start() raises, no server is left running. (Violated: the servers launched before the failure keep running; it is shown that they are exactly a proper prefix of the intended ones and that stop() removes them.)",
  "every interface list and every failure of the operating system", "Every failing call at every position.",
  ["uecho/frame/manager.py:Manager.start"])
p("C72", "stop() may be called from a callback",
  "stop() called in a callback (that is, by a receiving thread) stops the node. (Violated: it raises RuntimeError, and the servers after the caller's one keep running.)",
  "every server list and every receiving thread", "Every position of the calling thread.",
  ["uecho/frame/manager.py:Manager.stop", "uecho/frame/server.py:Server.stop"])
p("C73", "announce_message tells whether something was sent",
  "announce_message returns True only if the message was sent. (Violated: it returns True with no server and also when every interface refuses; with a working server it means that every one of them was tried.)",
  "every server list, message and behaviour of the operating system", "All behaviours of sendto.",
  ["uecho/frame/manager.py:Manager.announce_message"])
p("C74", "One failing interface does not keep a message from the others",
  "If sending through one interface fails, the message is still sent through the others. (Violated when the failure is an exception, which is propagated at once; holds when it is a refusal.)",
  "every server list, message and behaviour of the operating system", "All behaviours of sendto.",
  ["uecho/frame/manager.py:Manager.send_message", "uecho/frame/manager.py:Manager.announce_message", "uecho/frame/unicast_server.py:UnicastServer"])

p("C75", "The answer to a request carries its TID",
  "Every datagram a node sends in answer to a request has the TID of the request. (Violated exactly for TID 0: such an answer gets the next automatic TID, which is never 0.)",
  "every reachable node and request", "All requests, TID 0 included, in all node states.",
  ["uecho/local_node.py:LocalNode.message_received", "uecho/frame/manager.py:Manager.send_message"])
p("C76", "start(ifaddrs) uses the given interfaces",
  "A node started with a list of interface addresses listens and sends on these only. (Violated: the argument is ignored; the node uses every interface but the loopback and takes the address of the first.)",
  "every node, interface configuration and argument", "All interface configurations.",
  ["uecho/local_node.py:LocalNode.start", "uecho/frame/manager.py:Manager.start"])

p("C77", "Listeners are told exactly what a report changes",
  "A read response or notification from a known node to the controller's node profile makes every listener hear of exactly those properties whose stored data it changes, in order, and then, if there was any, of the object and the node once.",
  "every reachable controller, set of listeners and report", "All states and messages, repeated properties included.",
  ["uecho/controller.py:Controller._update_properties"])
p("C78", "get_node returns None for what is not known",
  "get_node returns None, and does not raise, for every name or address of which no node is known. (Violated: once a node is known, a name that does not resolve raises, even if it is the address of a known node.)",
  "every controller state, name and resolver", "All tables and all resolver behaviours.",
  ["uecho/controller.py:Controller.get_node"])
p("C79", "A node is usable when node_add is called",
  "When a listener's node_add is called, the controller already knows the node and the node is linked to the controller, so that requests can be sent to it from the callback. (Violated: listeners are called first.)",
  "every reachable controller and instance list", "All states.",
  ["uecho/controller.py:Controller._add_found_node"])
p("C80", "A raising listener harms nobody else",
  "If a listener raises, the other listeners are still told and the node is still stored. (Violated: the exception ends message_received; later listeners are not told and the node is lost.)",
  "every controller, instance list, position of the raising listener", "All positions and exceptions.",
  ["uecho/controller.py:Controller._add_found_node"])
p("C81", "Rediscovery keeps what was learned",
  "Property values learned from a node are kept when the node announces its instances again. (Violated: each instance list replaces the node by a new one.)",
  "every reachable controller and message", "All histories.",
  ["uecho/controller.py:Controller.message_received", "uecho/controller.py:Controller._add_found_node"])
p("C82", "Only instance lists of a node profile describe a node",
  "Which objects a found node has is determined by instance lists sent by node profiles only. (Violated: the SEOJ is not looked at, a property 0xD5 or 0xD6 of any device is taken for an instance list.)",
  "every reachable controller and operation", "All histories and messages.",
  ["uecho/controller.py:Controller.message_received", "uecho/remote_node.py:RemoteNode.parse_message"])
p("C83", "Only registered listeners are called",
  "Whatever is received, only listeners registered at that time are called; remove_listener takes back one registration, or raises ValueError if there is none; a removed listener hears nothing more.",
  "every controller state, message and behaviour of listeners", "All states and messages.",
  ["uecho/controller.py:Controller.add_listener", "uecho/controller.py:Controller.remove_listener"])
p("C84", "Messages from one address do not change what is known about another",
  "Receiving a message changes at most the node of the sender's address; calls other than the receiving of messages (search, start, stop, sending, listeners) change nothing of what is known.",
  "every reachable controller, message and operation", "All states and messages.",
  ["uecho/controller.py:Controller.message_received"])
p("C85", "post_message returns the first response",
  "If several messages with the request's TID arrive, post_message returns the one that arrived first. (Violated with two receiving threads, of which every started controller has at least two: a second response overwrites the first; it holds with one receiving thread.)",
  "every interleaving of one poster with receivers, senders and timeouts", "All schedules.",
  ["uecho/controller.py:Controller.post_message", "uecho/controller.py:Controller.message_received"])
p("C86", "post_message returns as soon as the response is there",
  "When the response has been processed, the posting thread does not wait for the timeout. (Violated: a response processed before the posting thread waits notifies nobody, and the thread waits for the whole timeout with the response at hand; it holds if the response is stored while the thread waits.)",
  "every interleaving of one poster with receivers, senders and timeouts", "All schedules; lost wake-ups.",
  ["uecho/controller.py:Controller.post_message", "uecho/controller.py:Controller.message_received"])

p("C87", "post_message reaches nodes that have not been found",
  "A read or write request posted to an address at which a LocalNode listens returns its response whether or not the controller has found that node. (Violated for reads: the response of a node that has not been found raises in the controller, ends its receiving thread, and the posting thread gets nothing. It holds for writes.)",
  "every reachable controller, reachable node, object and request that fits a datagram", "Composition of codec, dispatch, object and controller over all states.",
  ["uecho/controller.py:Controller.post_message", "uecho/controller.py:Controller.message_received", "uecho/controller.py:Controller._update_properties"])

p("C88", "search() finds every node that answers",
  "After start(), search() sends one datagram through every running interface. Every LocalNode that receives it and can answer does; whichever of the answers arrive, in whatever order, lost, doubled or not, the receiving thread goes on, get_node finds exactly the nodes whose answers arrived in addition to those known before, each with its node profile and its instances, and the listeners are told of each.",
  "every reachable controller, every set of reachable nodes, every order, loss and repetition of answers", "Composition of both ends over all sets of nodes and all arrival orders.",
  ["uecho/controller.py:Controller.search", "uecho/controller.py:Controller.message_received", "uecho/local_node.py:LocalNode.message_received"])
p("C89", "Messages can be sent through objects and properties of found nodes",
  "send_message of an object of a found node sends one datagram to port 3610 of its node that decodes to a message to the object with the service and the properties; send_message of a property does so with that property and the data given; post_message of a property returns the device's data (0x62) or sets it (0x61) and changes nothing else; arguments that are not lists of (int, bytes) send nothing and return False or None.",
  "every reachable controller and node, object, service with one property list, list of pairs that fits a datagram", "Composition over all states and inputs.",
  ["uecho/object.py:Object.send_message", "uecho/object.py:Object.post_message", "uecho/property.py:Property.send_message", "uecho/property.py:Property.post_message"])
p("C90", "send_message of an object or property reports failure by its return value",
  "send_message of an object or a property returns True or False as documented and raises nothing. (Violated: AttributeError for objects without a node, of a local node, of a node no controller found, and properties without an object; ValueError for data that does not fit. It holds for objects of found nodes, data that fits and a network that does not raise.)",
  "every controller state, object and list of pairs", "All objects and states.",
  ["uecho/object.py:Object.send_message", "uecho/property.py:Property.send_message"])
p("C91", "Object.copy() copies an object",
  "copy() of an object returns an object with the code, the properties with their attributes and data, that behaves the same. (Violated: it raises TypeError for every object of a found node; a copy answers no request. Code and properties are the same where it does not raise.)",
  "every object, every reachable controller", "All objects and histories.",
  ["uecho/object.py:Object.copy", "uecho/property.py:Property.copy"])
p("C92", "Objects of found nodes have the properties their device has",
  "The objects of a found node have the properties the device reports. (Violated: whatever has been received, they have exactly the properties of their class in the standard's tables, with the access rules of the tables; others stay unknown even if reported.)",
  "every reachable controller, found node and object", "All histories.",
  ["uecho/controller.py:Controller._update_properties", "uecho/remote_node.py:RemoteNode.parse_message"])

p("C93", "Observers of a local node are told about messages",
  "An observer added to a local node is called once for every message the node receives. (Violated: an observer added before the node is started, or before it is started again, is never called; one added after the last start is called once per message, in the order of addition.)",
  "every node, network, sequence of additions and message", "All sequences of additions around starts; tests start first and add one.",
  ["uecho/local_node.py:LocalNode.add_observer", "uecho/frame/manager.py:Manager.add_observer", "uecho/frame/manager.py:Manager.start"])
p("C94", "A listener may post a message and wait for its response",
  "post_message returns the response that arrives in time, also if it is called from a callback of the library. (Violated: called from the callback of the thread that receives, it returns None in every execution in which no other thread receives the response; if another thread receives it, it is returned.)",
  "every schedule of any number of threads", "All interleavings, and an execution that waits for itself.",
  ["uecho/controller.py:Controller.post_message", "uecho/controller.py:Controller.message_received", "uecho/frame/server.py:Server.run"])
p("C95", "The found nodes may be looked at while messages are received",
  "Controller.nodes and Controller.get_node return what is known at some moment of the call, whatever is received meanwhile. (Violated: if a node is found during the call they may raise RuntimeError; if only known nodes are stored again, nothing is raised and every node returned was the one stored for its address at some moment of the call.)",
  "every table of nodes, every schedule of stores by other threads", "All interleavings of the loop with stores.",
  ["uecho/controller.py:Controller.nodes", "uecho/controller.py:Controller.get_node", "uecho/controller.py:Controller._add_found_node"])

p("C96", "Every listener is told, whatever the others do",
  "Each listener registered when something happens is called once for it, in the order of registration, also if listeners add or remove listeners during the call. (Violated: a listener that removes itself makes the next one be skipped; one that adds a listener at each call keeps the receiving thread in the loop for ever. It holds if listeners remove none that have been called before, and add finitely many.)",
  "every list of listeners and every behaviour of theirs", "All behaviours of user code during the loop.",
  ["uecho/controller.py:Controller.add_listener", "uecho/controller.py:Controller.remove_listener"])
p("C97", "Devices are made from the standard, whatever was done with other objects",
  "Device(code) is the standard object of its class with no data, whatever was done before with objects returned by get_standard_object or with other devices. (Violated: data written to an object returned by get_standard_object is in every Device of that class made later; after such an object was added to a node, Device(code) raises TypeError. Writing to devices does not matter.)",
  "every history of writes and constructions", "Aliasing through the shared database over all histories.",
  ["uecho/std/database.py:Database.get_object", "uecho/controller.py:Controller.get_standard_object", "uecho/super_object.py:SuperObject", "uecho/device.py:Device"])
p("C98", "The response post_message returns comes from the node asked",
  "The message post_message returns is a response of the node and object the request was sent to. (Violated: any message with the TID whose service is not a request is taken, from any address, object and with any service, known or not. It is always a message that was received, unchanged, with the TID, and the first such one if no reports are involved.)",
  "every reachable controller, every sequence of messages received", "All senders and sequences of messages.",
  ["uecho/controller.py:Controller.post_message", "uecho/controller.py:Controller.message_received", "uecho/protocol/message.py:Message.is_response_message"])
p("C99", "Announcements that want an answer update the controller",
  "An announcement that wants an answer (0x74) tells the controller what the same announcement without (0x73) tells. (Violated: a 0x74 changes nothing the controller knows and calls no listener, for every state and message; the 0x73 makes the node known with the objects it lists.)",
  "every reachable controller and message", "All states and messages.",
  ["uecho/controller.py:Controller.message_received", "uecho/protocol/esv.py:ESV.is_request"])

p("C100", "The sample light reports what it shows",
  "The sample light (a device with a request handler of its own) answers a read of its operation status with 0x30 while it is lit and with 0x31 while it is not, whatever messages it got before.",
  "every history of messages of any kind and of switching by its program", "All histories, with a handler that keeps its own state.",
  ["examples/device/monolight/monolight.py:MonoLight", "uecho/object.py:Object.message_received"])
p("C101", "The sample light obeys every command",
  "A command 0x30 or 0x31 written to the operation status of the sample light is confirmed, switches it and is what it reports afterwards, whatever it got before. (Violated: a write of more than one byte is confirmed, and after it every command is refused for ever. It holds as long as every write to the status carries one byte.)",
  "every history of messages", "All histories.",
  ["examples/device/monolight/monolight.py:MonoLight", "uecho/object.py:Object.message_received"])
p("C102", "The device of the documentation can be controlled",
  "A device written as the documentation shows accepts 0x30 and 0x31 for its operation status. (Violated: it looks at the length of the data it has, not of the data it is asked to store; it has none, so it refuses every write for ever. It works if its program has set a status of one byte.)",
  "every history of messages, every write", "All histories.",
  ["doc/device_overview.md", "uecho/object.py:Object.message_received"])
p("C103", "The sample light survives every request",
  "The sample light raises nothing on any message. (Violated: a write of no data to the status raises IndexError, which ends the thread that receives. It raises nothing on any other write, in any state.)",
  "every history of messages, every message", "All histories and messages.",
  ["examples/device/monolight/monolight.py:MonoLight", "uecho/frame/server.py:Server.run"])

p("C104", "uechopost sends what its arguments say",
  "Given an address, an object, a service and properties as hexadecimal text, uechopost sends one message to that address with exactly that object, service and properties, and sends nothing if one of them is not hexadecimal. (Violated: of an object with more than three bytes the first ones are dropped, so another object is addressed; for services with two lists of properties no property is sent at all.)",
  "every controller state, argument list and text", "All texts.",
  ["bin/uechopost.py", "uecho/util/hex.py:Hex.from_string", "uecho/controller.py:Controller.post_message"])
p("C105", "uechopost takes numbers as documented",
  "Codes and data given to uechopost as numbers, as in (80,30), are their digits read as hexadecimal. (Violated: numbers with an odd number of digits, such as 0, negative numbers and a number without a comma make it raise; others are taken as their digits.)",
  "every number", "All numbers.",
  ["bin/uechopost.py", "doc/examples.md"])
p("C106", "The line uechopost prints shows the response",
  "The line printed for a response is its address, object, service and properties, and different responses have different lines. (Violated: of responses with two lists of properties no property is printed; it holds for all others.)",
  "every response that can be received", "All pairs of responses.",
  ["bin/uechopost.py"])
p("C107", "uechopost prints the current data of a device",
  "uechopost with service 62 and codes of readable properties of a device that was found and answers prints one line with the address, the object, 72 and the current data of each property, and changes nothing at the device.",
  "every reachable controller and device, all texts of the arguments", "Composition of both ends over all states.",
  ["bin/uechopost.py", "uecho/controller.py:Controller.post_message", "uecho/object.py:Object.message_received"])
p("C108", "uechosearch lists the nodes of the network",
  "uechosearch prints exactly one line for each address from which an instance list has been received: the address, and numbered the node profile and the objects of the latest list; after a search every device whose answer arrived has its line with all its objects.",
  "every reachable controller, every set of devices, every order of answers", "All histories and orders of arrival.",
  ["bin/uechosearch.py", "uecho/controller.py:Controller.nodes", "uecho/controller.py:Controller.search"])

p("C109", "Sessions with several devices behave like a store",
  "A controller that posts any sequence of read, write and write-read requests to any objects of any devices it has found gets for each a response, and responses and data are those of a store of properties: a read returns the data last written to that property of that object of that device, refused items are marked as refused, and nothing else changes anywhere.",
  "every sequence of requests, every number of devices, every reachable controller and device state", "Sequences of any length to any number of devices; composition of both ends.",
  ["uecho/controller.py:Controller.post_message", "uecho/local_node.py:LocalNode.message_received", "uecho/object.py:Object.message_received"])
p("C110", "Late responses are not taken for the current one",
  "However responses are lost, delayed, repeated and reordered by the network, what post_message returns is a response to the message posted and not to an earlier one. (Violated: a response to the message posted 65535 messages earlier is returned. It holds for every response that is not that late.)",
  "every sequence of messages sent and received, every network, every order of arrival", "All interleavings of sending and arrival, of any length.",
  ["uecho/controller.py:Controller.post_message", "uecho/controller.py:Controller.message_received", "uecho/frame/manager.py:Manager.send_message"])

p("C111", "A message object can be posted again",
  "When a program posts the same Message object again, after a timeout or to another node, the second post_message returns a response to the second request. (Violated: the object keeps the TID of the first request, so that a late response to the first one, from whomever it was sent to, is returned. It holds if the TID is set to 0 before.)",
  "every reachable controller state, message and pair of destinations", "Depends on the order of arrival of messages, for all states and messages.",
  ["uecho/controller.py:Controller.post_message", "uecho/frame/manager.py:Manager.send_message"])
p("C112", "Objects and properties have the names of the standard",
  "A device or profile made for a code has the name of its class in the standard, and its properties have the names, types and sizes the standard gives them, in the order of the tables. (Violated: an object of a class that is not in the tables is named 'Super class', and asking a property made by the user for its name raises AttributeError.)",
  "every object code, every property of the tables", "All codes and both tables; which of several lines for a code counts.",
  ["uecho/std/object.py:StandardObject.set_code", "uecho/super_object.py:SuperObject._set_object_properties", "uecho/std/reader.py:Property", "uecho/property.py:Property"])
p("C113", "set_code makes an object one of the new class",
  "After set_code(code) an object is as one newly made with that code. (Violated: the properties of the class it had before stay. Those of the new class are as new.)",
  "every object with valid property codes, every code", "All pairs of classes, all object states.",
  ["uecho/std/object.py:StandardObject.set_code", "uecho/super_object.py:SuperObject._set_object_properties"])

p("C114", "uechosearch -v and uechobench -v print what the devices hold",
  "Run by a controller over devices that answer, uechosearch -v prints, for every found node, its address and the name of its manufacturer (the code in hexadecimal if it is unknown), and, for every object of the node, its number, code and name, and, for every property the standard requires to be readable and no other, its number, code, name and the data the device holds, nodes being separated by empty lines. uechobench -v prints the same without the manufacturer. The unsolicited send before each post changes nothing.",
  "every reachable controller state, any number of nodes and objects, any data up to 255 bytes, anything happening between the steps that leaves the data of the devices as they are",
  "A program over the whole library: tables, found nodes, transport, devices; all data and all networks.",
  ["bin/uechosearch.py", "bin/uechobench.py", "uecho/property.py:Property.post_message", "uecho/property.py:Property.send_message", "uecho/controller.py:Controller.post_message"])

p("C115", "A datagram delivered more than once does no harm",
  "If the same datagram reaches a device twice, the second delivery changes no property and is answered with the same bytes to the same address as the first. If the same response or report reaches a controller twice, the second delivery changes nothing it knows of any device, nor the response a waiting thread gets, and listeners are told nothing more. The second delivery may be late: other messages may come in between.",
  "every object, every reachable device and controller, every message of every kind, every history between the two deliveries",
  "UDP doubles and delays datagrams at will; a test delivers each once and in order.",
  ["uecho/object.py:Object.message_received", "uecho/local_node.py:LocalNode.message_received", "uecho/controller.py:Controller.message_received", "uecho/protocol/observer.py"])

p("C116", "The objects of one device do not influence each other",
  "After any sequence of messages, every object of a device holds what it would hold had it been alone and been sent only its own messages, and it answers a request with the same bytes. How messages for different objects are mixed does not matter.",
  "every reachable node, any number of objects, every sequence of encodable messages with and without TID, every handler that leaves object codes alone",
  "Needs all interleavings of all message sequences for all objects; tests use one object or a fixed order.",
  ["uecho/local_node.py:LocalNode.message_received", "uecho/object.py:Object.message_received", "uecho/node.py:Node.get_object"])

p("C117", "The library never causes a packet storm",
  "Whatever datagrams are on a network of devices and controllers built with this library, they cause only finitely many more: a datagram that is not a request is never answered, an answer is never a request, and a request is answered at most once per server. The number of packets from any moment on is bounded by the packets then on their way.",
  "any number of devices and controllers in any state, every delivery order, loss and duplication of up to K copies, every content of datagrams, handlers and listeners that do not themselves send",
  "A storm needs several machines and unbounded time; tests run one exchange between two.",
  ["uecho/local_node.py:LocalNode.message_received", "uecho/controller.py:Controller.message_received", "uecho/object.py:Object.message_received", "uecho/esv.py:ESV"])

p("C118", "Several controllers and devices share one store",
  "Several controllers and several devices are run together: controllers post requests that read and write, devices' programs assign new values, controllers hear reports. What every controller is told and what every device holds is what one shared store gives that is changed by the writes and assignments in their order: a read returns the last value assigned, by whichever controller or by the device itself.",
  "any number of controllers and devices, every sequence of requests, assignments and reports that fit the devices, every reachable state to begin with",
  "Needs all interleavings of several clients and of the devices' own programs over unbounded sequences; tests use one client and one device.",
  ["uecho/controller.py:Controller.post_message", "uecho/local_node.py:LocalNode.message_received", "uecho/object.py:Object.message_received", "uecho/object.py:Object.set_property_data"])

p("C119", "A device written as the documentation shows tells its property maps",
  "A device whose handler is written as the documentation of the project shows answers a read of its property maps (0x9D, 0x9E, 0x9F), which every device has to make readable, and so can be searched for its properties.",
  "every state of such a device that messages can bring about, every request for any list of properties",
  "Tests of the sample read its operating status only.",
  ["doc/device_overview.md", "doc/device_inside.md", "uecho/object.py:Object.message_received"])

p("C120", "A node always says who it is",
  "Asked for its node profile's operating status, version, identification number and manufacturer, all required of every node, a node gives the same non-empty answer throughout its life; the identification number is the one drawn when it was created and nothing received changes it.",
  "every history of a node: objects added and changed, options, starts, stops, received messages with arbitrary handlers; every random identification number",
  "Concerns all histories; tests read a fresh node.",
  ["uecho/node_profile.py:NodeProfile", "uecho/local_node.py:LocalNode.message_received", "uecho/profile.py:Profile"])

p("C121", "A request for all instances of a class reaches each of them",
  "A request whose destination has instance code 0x00, which stands for all instances of the class, is performed by every object of that class in the node.",
  "every history of a node, every class, every encodable message, every handler",
  "Concerns all histories and classes; tests address objects by their own codes.",
  ["uecho/local_node.py:LocalNode.message_received", "uecho/node.py:Node.get_object"])

p("C122", "A node announces what it has to",
  "A node announces its instance list to the group when it is started and when objects are added, and announces properties that have to be announced when they change.",
  "every history of a node: objects added and changed, options, starts, stops, received messages with arbitrary handlers",
  "Shows on the network of other machines only, over whole lives of nodes.",
  ["uecho/local_node.py:LocalNode.start", "uecho/local_node.py:LocalNode.announce_message", "uecho/local_node.py:LocalNode.add_object", "uecho/object.py:Object.set_property_data"])

p("C123", "A node may be stopped while other threads use it",
  "stop() may be called while other threads send messages or stop the node as well: send_message then returns whether the message was sent and stop returns, neither raises. After stop() has returned nothing is sent, and stop() does return.",
  "any number of sending and stopping threads and the receiving thread, every interleaving of their accesses to the socket, every behaviour of the operating system's sendto",
  "Depends on the interleaving of threads within a few instructions.",
  ["uecho/frame/server.py:Server.stop", "uecho/frame/server.py:Server.run", "uecho/frame/unicast_server.py:UnicastServer.send_message", "uecho/frame/unicast_server.py:UnicastServer.announce_message"])

p("C124", "Objects may be added from several threads",
  "add_object called by several threads at once returns True for each; afterwards the node has all the objects and describes all of them in its instance and class lists, and at no moment does it describe something it never had.",
  "any number of threads adding any objects, every interleaving of their accesses to the table of objects and the profile",
  "Depends on the interleaving of threads within a few instructions.",
  ["uecho/local_node.py:LocalNode.add_object", "uecho/node.py:Node.objects", "uecho/node_profile.py:NodeProfile._update_map_properties"])

p("C125", "No peer can change what a node is",
  "Whatever datagrams a node gets from whomever, it keeps its objects and their order, their properties, attributes and request handlers, the data of properties that may not be written, its profile, options, address and servers; and any invariant of an object that the owner's callbacks respect, and that storing accepted data respects, still holds.",
  "every node a program can build, every sequence of datagrams (well formed or not) from any addresses, any user code that does not change codes, any behaviour of the network",
  "Tests send a few datagrams; this is about every hostile sequence.",
  ["uecho/object.py:Object.message_received", "uecho/local_node.py:LocalNode.message_received", "uecho/frame/server.py:Server.run"])

p("C126", "Stopping and starting loses nothing",
  "A node or controller may be started and stopped any number of times, successfully or not: a node keeps its objects, data, profile, options and transaction counter, sends nothing by that, and after a successful start is as if it had been started once, with the first address of the host that is not the loopback address; a controller moreover keeps the nodes it has found and its listeners, whom it does not call.",
  "every sequence of start and stop, every outcome of the calls to the operating system, every state before",
  "Tests start and stop once, on a host where everything works.",
  ["uecho/local_node.py:LocalNode.start", "uecho/local_node.py:LocalNode.stop", "uecho/controller.py:Controller.start", "uecho/controller.py:Controller.stop", "uecho/frame/manager.py:Manager.start", "uecho/frame/manager.py:Manager.stop"])

p("C127", "A controller does not find itself",
  "After search() a controller lists the other nodes that answered; it is not itself in its list of found nodes.",
  "every controller with any history, every moment after a search, whatever was received",
  "Needs datagrams of the controller's own host to come back to it, in any state of it.",
  ["uecho/controller.py:Controller.message_received", "uecho/controller.py:Controller.search", "uecho/local_node.py:LocalNode._is_self_message"])

p("C128", "Nodes that announce themselves at the same time are all found",
  "A controller with several receiving threads lists every node that announced itself, with the objects of its last announcement, and goes on receiving, however the threads interrupt each other.",
  "every controller with any history, any number of threads and messages, every interleaving of their steps",
  "Depends on where the threads interrupt each other; a test sees one interleaving.",
  ["uecho/controller.py:Controller.message_received", "uecho/controller.py:Controller._add_found_node", "uecho/controller.py:Controller._update_properties", "uecho/controller.py:Controller.get_node", "uecho/frame/server.py:Server.run"])

p("C129", "The profile of a transmission-only node",
  "A NodeProfileReadOnly describes its node as a NodeProfile does (status, version, identification number, lists of instances and classes); it cannot be changed by any message, refuses every write with an answer that says so, lists no property as writable in its Set property map, and answers reads like any other object.",
  "every such profile, every message, every history of datagrams of a node it was added to",
  "The profile must resist every message in every history; tests send a few.",
  ["uecho/node_profile.py:NodeProfileReadOnly", "uecho/profile.py:Profile.set_code", "uecho/super_object.py:SuperObject._set_object_properties", "uecho/object.py:Object.message_received"])

p("C130", "The objects of a program do not affect each other",
  "What the program or a peer does to one object (adding a property, setting data, sending it a message) changes no other object, and every object behaves as if it were the only one; a property an object has belongs to it.",
  "every program with any number of objects and properties, every sequence of operations on them and of messages to them",
  "Depends on which Python objects are shared; tests build devices one at a time.",
  ["uecho/object.py:Object.add_property", "uecho/object.py:Object.get_property", "uecho/object.py:Object.set_property_data", "uecho/object.py:Object.message_received", "uecho/super_object.py:SuperObject.add_property", "uecho/super_object.py:SuperObject._update_property_map_properties"])

p("C131", "On a network that loses, delays and repeats datagrams, a response is fresh and belongs to the request",
  "Several controllers and devices are run together on a network that may lose, delay, repeat and reorder datagrams. The response a controller finds for the request it posted last was given by the device asked, to that very request, at a moment after the posting, and shows the device's data at that moment; late answers to earlier requests are not taken for it. If the request arrives and its answer arrives before the next is posted, a response is found. The devices hold no data but what they began with, what their programs assign and what controllers order. No receiving thread ends.",
  "any number of controllers and devices, every sequence of posted requests, orders sent without waiting, assignments and arrivals of any datagram ever sent (any number of times, at any time, or never), every reachable state to begin with; answers at most 65534 orders late",
  "Needs every behaviour of an unreliable network over unbounded histories of several programs.",
  ["uecho/controller.py:Controller.post_message", "uecho/controller.py:Controller.send_message", "uecho/controller.py:Controller.message_received", "uecho/local_node.py:LocalNode.message_received", "uecho/object.py:Object.message_received", "uecho/frame/manager.py:Manager.send_message", "uecho/frame/server.py:Server.run"])

p("C132", "Numbers are read as they were stored",
  "A number set with set_property_integer, or written by a controller as the bytes of from_int, that fits the given number of bytes is the number the device's property has (number) and the number any controller reads from it later, as long as nothing has given the property other data in between; only that property is changed; a negative size raises and changes nothing.",
  "every number, size, object and property; any number of controllers and devices, every history before and in between",
  "All numbers and sizes, and all histories in between.",
  ["uecho/object.py:Object.set_property_integer", "uecho/property.py:Property.number", "uecho/util/bytes.py:Bytes.from_int", "uecho/util/bytes.py:Bytes.to_int", "uecho/controller.py:Controller.post_message"])

p("C133", "What peers can make a node remember is bounded",
  "Whatever datagrams a node gets, its objects with the default handler keep the properties they have, and each property holds what the program gave it or at most 255 bytes. A controller holds at most one node for each address it has heard from, with at most 85 objects of at most 128 properties of at most 255 bytes each. It never forgets a node, so the number of nodes is bounded by the number of addresses only: one datagram from each of any number of (say, forged) addresses makes it hold that many.",
  "every sequence of datagrams whatsoever, every history of the controller, every request handler of other objects",
  "All sequences of datagrams, of any length: what is to be excluded is growth in the long run.",
  ["uecho/object.py:Object.message_received", "uecho/controller.py:Controller.message_received", "uecho/remote_node.py:RemoteNode.parse_message", "uecho/super_object.py:SuperObject._update_property_map_properties"])

p("C134", "A request handler is asked once about each thing requested, and about nothing else",
  "When a request reaches an object with a request handler of the program, the handler is asked about each item that names a property of the object, exactly once, in the order of the items (in a write-and-read request the writes first), with the value that is to be written; it is asked nothing else. This holds for handlers that answer differently each time. What it grants is stored, in that order. Announcement requests and messages that are no requests never reach it.",
  "every handler that keeps any notes and bases any answer on them, every object, every message",
  "The handler may be any program with a memory; the order and number of the calls, and not only the answer, are at stake.",
  ["uecho/object.py:Object.message_received", "uecho/object.py:ObjectRequestHandler.property_read_requested", "uecho/object.py:ObjectRequestHandler.property_write_requested"])

p("C135", "Property maps stay right when properties are added by several threads",
  "Threads of a program may add properties to one object at the same time. Once an add_property is through the object has the property. The three property maps never list a code that was not to be listed at some moment, nor leave out one that was to be listed all along; once all calls have returned they list exactly the properties the object has.",
  "every number of threads, every interleaving of their steps, every object with right maps, all properties other than the maps",
  "Interleavings of threads inside a loop over a dictionary cannot be enumerated by tests, and the bad ones need an unlucky moment.",
  ["uecho/super_object.py:SuperObject.add_property", "uecho/super_object.py:SuperObject._update_property_map_properties", "uecho/object.py:Object.add_property"])

p("C136", "Nothing is sent that nobody asked for, and all that is sent is a message",
  "Every datagram a node or a controller ever hands to the network is a complete message of the protocol that fits its fields, and is caused by a call of the program or by a request received: an announcement goes to the multicast address, a message sent or posted goes to where the program says with its contents unchanged, a search reads the instance lists of all nodes, an answer is a response or notification to the object that asked, with its TID, and goes to the address it asked from, or to everybody if it is a notification. A controller always names its node profile as the sender.",
  "every history of calls and received messages of a local node or controller, every program handler and listener, every behaviour of the network",
  "What a machine may send over its life ranges over all histories and all datagrams of peers; tests look at single calls.",
  ["uecho/local_node.py:LocalNode.message_received", "uecho/controller.py:Controller.send_message", "uecho/controller.py:Controller.announce_message", "uecho/frame/manager.py:Manager.send_message"])
p("C137", "What a controller sends reaches and can be read by machines running the library",
  "Every datagram a controller sends goes to port 3610, the port of the protocol, at which every machine listens, and is received by the library as the message sent.",
  "every history of calls and received messages of a controller, every receiver",
  "All histories, all message sizes and all peers; tests use small messages on one machine, where all ports are 3610.",
  ["uecho/local_node.py:LocalNode.message_received", "uecho/controller.py:Controller.post_message"])

p("C138", "A request handler may use the node it belongs to",
  "A request handler may, while it is asked about a property, call its node: send and announce messages, change its own object and others, add objects, set options, start and stop. The request is performed and answered exactly as if it had made none of these calls, objects it leaves alone stay as they are, what it sends goes out before the answer, and a property it announces is announced with the value the request sets.",
  "every handler making any calls depending on the whole state of its node, every request, every state of the node, every behaviour of the network",
  "Ranges over all programs called back by the library; tests use handlers that only return True.",
  ["uecho/object.py:Object.message_received", "uecho/local_node.py:LocalNode.message_received", "uecho/object.py:ObjectRequestHandler"])

p("C139", "A listener may use the controller it listens to",
  "A listener may, while it is told something, call its controller: search, send, announce, add objects, set options, start and stop. The message is taken in exactly as if it had made none of these calls, all listeners are told the same in the same order, and over a whole life the controller is at each moment as one whose program made these calls by itself.",
  "every listener making any such calls depending on the whole state of its controller, every message, every history, every behaviour of the network",
  "Ranges over all programs called back by the library and all histories; tests use listeners that count.",
  ["uecho/controller.py:Controller.message_received", "uecho/controller.py:Controller._update_properties"])
p("C140", "Listeners that search for more nodes when a node is added come to rest",
  "A listener that calls search when node_add tells it of a node makes the controller search once for each node that is new; when all nodes are known the network is quiet.",
  "every controller history, every number of listeners and interfaces, every host that can be found, any number of exchanges",
  "The traffic grows without bound only through the interplay of listener, controller and another machine; a test with one message sees one search.",
  ["uecho/controller.py:Controller.message_received", "uecho/controller.py:Controller.search"])

p("C141", "An observer of an object may use the node",
  "An observer of an object may, while it is told of a message, call the node: send and announce messages, change properties, add objects, set options, start and stop. The message is then handled exactly as if these calls had been made just before it arrived, whatever the observer does, also if the request handler makes calls as well, and the node's history is like any other.",
  "every observer making any such calls depending on the whole state of the node and the message, every message, every history of the node, every behaviour of the network",
  "Ranges over all programs called back by the library; tests use observers that record.",
  ["uecho/object.py:Object.message_received", "uecho/local_node.py:LocalNode.message_received", "uecho/protocol/subject.py:Subject.notify"])

p("C142", "What may not be read does not leak",
  "If two nodes lead the same life except that their programs put different data into properties whose access rule forbids reading, the two send exactly the same datagrams to the same places: no request, of any service, addressed to anything, read, write, write-read or notification request, accepted or refused, well or ill formed, and no sequence of such requests, announcements, starts and stops reveals anything of this data. Request handlers of the program are assumed to go by the access rules when asked to permit a read; a handler that permits everything overrides them, and then the data goes out.",
  "every two histories differing only in data that may not be read, every handler that goes by the access rules, every message, every behaviour of the network",
  "A statement about pairs of executions: a test would have to compare everything sent for every pair of secrets and every sequence of requests.",
  ["uecho/object.py:Object.message_received", "uecho/super_object.py:SuperObject.property_read_requested", "uecho/local_node.py:LocalNode.message_received"])

p("C143", "A device treats everyone alike",
  "What the objects of a node hold after any history depends only on what the program did to them and what was asked of them, in which order: not on who asked, from which address or port, in the name of which object, with which TIDs, whether to one or to all, nor on how the network behaved, the options of the node, and whether and when it was started, stopped, announced or sent anything. The answer to a request is the same for everyone too, except that it carries the TID of the asker and goes to the object and address of the asker.",
  "every two histories with the same requests in the same order from any askers, every program whose handlers are the same, every behaviour of the network",
  "Compares executions that differ in everything but the requests; tests always ask from the same place.",
  ["uecho/object.py:Object.message_received", "uecho/local_node.py:LocalNode.message_received", "uecho/local_node.py:LocalNode.start"])

p("C144", "An answer is not too long for whoever asked",
  "A node that receives a request sends an answer that a program using the library can receive, that is, of at most 1024 bytes. (Violated by every node: asked 169 times or more for its version in one request of at most 522 bytes, it sends more than 1024 bytes, and these end the receiving thread of an asker that uses the library. A request for at most three properties always gets an answer that fits; an answer is never longer than 128.5 times the request.)",
  "every node after every history, every request of every service",
  "Ranges over the contents of all properties and all requests; tests read one property at a time.",
  ["uecho/object.py:Object.message_received", "uecho/frame/server.py:Server.run", "uecho/protocol/message.py:Message.to_bytes"])

p("C145", "Nodes of one program do not disturb each other",
  "In a program with several nodes, which also keeps references to all objects, every node is what it would be if it were the only one: only what is done to it and to its objects changes it. (Violated by objects that are added twice: an object in two nodes that is written through the one is changed in the other, and says it belongs to the node it was added to last; an object that is given another code and added again stays in the node under the old code, too.)",
  "any number of nodes and objects, every order of additions, messages, changes by the program, starts, stops and sendings on all of them",
  "Ranges over all programs with several nodes; tests have one node per program or one object per node.",
  ["uecho/local_node.py:LocalNode.add_object", "uecho/local_node.py:LocalNode.message_received", "uecho/node.py:Node.add_object", "uecho/node.py:Node.get_object"])

p("C146", "A node that the program forgets is stopped",
  "Nodes, controllers and their servers have a `__del__` that stops them: when a program no longer refers to a node, its sockets are closed and its threads end, so that a program may end without having called `stop()`. (Violated by every node that has been started: its receiving threads refer to the servers, these to the node as their observer, so the node is never collected, goes on answering, and the process does not end until `stop()` is called or the threads die. It holds for nodes that were not started, whose `start()` failed, or whose threads have ended; and a collected node never comes back.)",
  "every program with any number of nodes and objects and every pattern of references between them, every order of operations, forgetting, dying threads and collections",
  "Ranges over all reference graphs and all times at which the interpreter may collect; a test sees one.",
  ["uecho/local_node.py:LocalNode.__del__", "uecho/frame/manager.py:Manager.__del__", "uecho/frame/server.py:Server.__del__", "uecho/controller.py:Controller.__del__", "uecho/protocol/subject.py:Subject.add_observer", "uecho/local_node.py:LocalNode.start"])

p("C147", "A device answers every datagram as the standard says",
  "A started device is a server of its properties: whatever datagrams arrive, in whatever order and from whomever, each request to one of its objects is carried out and answered as the ECHONET Lite standard prescribes (services, contents, addressee, transaction number), and everything else is ignored. (Violated by confirmed writes that are refused, writes of properties that are not there, requested announcements, confirmed announcements, write-read requests naming a property that is not there, requests to all instances of a class, with transaction number 0, to a controller, and by datagrams that are no message or longer than 1024 bytes; for all others it holds, and what happens in these cases is given exactly as well.)",
  "every node with any history, all sequences of datagrams of arbitrary bytes at any of its threads",
  "Quantifies over all sequences of byte strings; a test sends a few.",
  ["uecho/frame/server.py:Server.run", "uecho/local_node.py:LocalNode.message_received", "uecho/object.py:Object.message_received", "uecho/frame/manager.py:Manager.send_message", "uecho/frame/manager.py:Manager.announce_message", "uecho/protocol/message.py:Message.parse_bytes"])

p("C148", "A controller knows and tells what the network told it",
  "A controller keeps a picture of the network: whatever datagrams arrive, in whatever order and from whomever, each announced instance list adds its node or updates it without forgetting what is known, each announced or read value is then known of the object it came from, listeners are told of exactly the changes, an answer with the number of the request waited for is handed to the one who waits, and everything else is ignored. (Violated by every value that does not come from a node profile and go to a node profile, by values from nodes not known and in answers to write-read requests, by repeated instance lists once something is known, by announcements to be confirmed, and by datagrams that are no message or too long; node_updated is never called. Outside this list it holds, and what happens in these cases is given exactly as well.)",
  "every controller with any history, all sequences of datagrams of arbitrary bytes at any of its threads; each node handling one message or call at a time",
  "Quantifies over all sequences of byte strings; a test sends a few.",
  ["uecho/controller.py:Controller.message_received", "uecho/controller.py:Controller._add_found_node", "uecho/controller.py:Controller._update_properties", "uecho/frame/server.py:Server.run", "uecho/protocol/message.py:Message.parse_bytes"])

p("C149", "A controller shows only objects that exist",
  "On a network whose machines all run the library, every object a controller lists for a node is an object of that node: whatever is lost, delayed, repeated or reordered, whenever objects are added, and whatever requests and answers are exchanged. (Violated: who reads a property with code 0xD5 or 0xD6 of any object, e.g. the voltage or the meter of a storage battery, gets the value taken for the list of the node's objects, so objects vanish and objects appear that do not exist.)",
  "every number of machines, devices and controllers, every history of each, every selection and order of the datagrams they sent arriving at the controller any number of times; each node handling one message or call at a time",
  "Quantifies over all histories of all machines of a network and all delivery orders; a test has one or two nodes.",
  ["uecho/controller.py:Controller.message_received", "uecho/remote_node.py:RemoteNode.parse_message", "uecho/node_profile.py:NodeProfile._update_map_properties", "uecho/local_node.py:LocalNode.message_received", "uecho/object.py:Object.message_received"])

p("C150", "A network is its machines",
  "Take any network of devices and controllers of this library, and let anything happen in it: programs announce, send, post and search, add and remove listeners and give properties new data, and datagrams arrive anywhere, in any order. What every call returns or raises, the data every device holds, what every controller knows, waits for and has told its listeners, which threads are still there and every datagram sent, in order, are those of a network of small machines that can be written down independently of the library. So nothing else matters: networks with the same machines behave the same for ever, whatever their nodes went through before. In a closed network, where only what was sent arrives, the same things can happen in both.",
  "every number of devices and controllers, every history of each, every sequence of calls and arrivals at all of them, all messages and data; each node handling one message or call at a time",
  "A refinement between whole networks: all interleavings of all calls and datagrams at any number of nodes; tests drive one exchange between two nodes.",
  ["uecho/local_node.py:LocalNode.announce_message", "uecho/local_node.py:LocalNode.send_message", "uecho/controller.py:Controller.post_message", "uecho/controller.py:Controller.search", "uecho/frame/manager.py:Manager.send_message", "uecho/object.py:Object.message_received"])
p("C151", "A network of this library works as the standard says",
  "Any network of devices and controllers of this library, used in any way, does what a network of devices that follow the standard and of controllers that do what may be expected would do: the same results of calls, the same data, the same knowledge, the same datagrams. (Violated: a light that a controller asks to announce its state refuses instead; it holds as long as none of the datagrams listed in C147 and C148 arrives.)",
  "every number of devices and controllers, every history of each, every sequence of calls and arrivals none of which is in the list; each node handling one message or call at a time",
  "Compares whole networks over all executions.",
  ["uecho/object.py:Object.message_received", "uecho/controller.py:Controller.message_received", "uecho/local_node.py:LocalNode.message_received"])

p("C152", "Only who writes a property changes it",
  "In a closed network of devices and controllers of this library, whatever they ask each other, announce, search for and answer, in any order and with any losses, duplicates and delays, a property of a node stays as it is, its data and whether it may be read or written, unless the node's own program stores data in it, or some program sends a message that writes it to the node's address or to everyone, or had done so before. Nothing a node sends by itself, no answer, refusal or notification, ever writes a property anywhere.",
  "every number of devices and controllers, every history, every sequence of calls and arrivals of what was sent, every node, object and property; each node handling one message or call at a time",
  "That nothing else has an effect is a statement about all executions of a whole network; a test sees that one write has one.",
  ["uecho/object.py:Object.message_received", "uecho/local_node.py:LocalNode.message_received", "uecho/controller.py:Controller.message_received", "uecho/controller.py:Controller.search"])
p("C153", "Nothing is made up",
  "In a closed network every value a device holds, a controller knows of another node, tells a listener or gives as an answer, and every value in any datagram is empty, or one a property that was never written holds, or one that was in the network before, or one that a program gave: in a message it sent, or in a store. No value is cut, joined, shifted or invented on its way, however many nodes it passes.",
  "every number of devices and controllers, every history, every sequence of calls and arrivals of what was sent, every set of values closed in this way; each node handling one message or call at a time",
  "Provenance over all executions; tests compare one value sent with one received.",
  ["uecho/protocol/message.py:Message.to_bytes", "uecho/protocol/message.py:Message.parse_bytes", "uecho/object.py:Object.message_received", "uecho/controller.py:Controller.message_received"])

p("C154", "A network survives its own use",
  "In a closed network of devices and controllers of this library no datagram that one of them sends ends a receiving thread of another or of itself, whatever their programs ask for and in whatever order, with whatever losses, duplicates and delays the datagrams arrive; and everything that is sent can be read.",
  "every number of devices and controllers, every history, every sequence of calls and arrivals of what was sent; each node handling one message or call at a time",
  "A thread that ended is silent: a test sees that the next datagrams are not answered only if it sends the one that broke it, in the state in which it does; that none does is a statement about all executions.",
  ["uecho/controller.py:Controller.message_received", "uecho/controller.py:Controller._update_properties", "uecho/message.py:Message.is_node_profile_message", "uecho/object.py:Object.message_received", "uecho/local_node.py:LocalNode.message_received", "uecho/frame/server.py:Server.run"])

p("C155", "The answer to a read was so since it was asked",
  "In a closed network of any number of devices and controllers, if no answer or announcement with the number of a request is under way to a controller when it posts the request, then each value in the response it ends up with is one the device that answered has held in that property of that object at some time since, whatever other programs read, write, store, announce truly and search for in the meantime, and whatever datagrams are lost, repeated and delayed.",
  "every number of devices and controllers, every history, every sequence of calls and arrivals of what was sent, every number of a request; each node handling one message or call at a time",
  "That no interleaving yields a stale or foreign value is a statement about all executions; a test sees one.",
  ["uecho/controller.py:Controller.post_message", "uecho/controller.py:Controller.message_received", "uecho/protocol/message.py:Message.is_response_message", "uecho/object.py:Object.message_received", "uecho/local_node.py:LocalNode.message_received"])
p("C156", "A controller shows only what was so",
  "In a closed network in which programs announce only what is so, every value a controller shows for a property of an object of a node it found, or tells its listeners, is what it supposes of a property of which nothing was heard, or one that this object of this node has held in this property at some time.",
  "every number of devices and controllers, every sequence of calls and arrivals of what was sent since the network was started, every node, object and property; each node handling one message or call at a time",
  "Truth of what is shown at all times in all executions; tests compare one value after one exchange.",
  ["uecho/controller.py:Controller._update_properties", "uecho/controller.py:Controller.message_received", "uecho/object.py:Object.message_received"])

p("C157", "Where nothing is lost, what is asked is answered",
  "In a closed network in which every datagram that is sent arrives at each node it is for, a controller that posts a read or a write with response to an object of a device that is in service, and asks nothing else meanwhile, ends up with the response to it, whatever all the other programs do.",
  "every number of devices and controllers, every history before the request, every sequence of calls and arrivals after it, every request that fits into a frame; each node handling one message or call at a time",
  "That an answer comes in the end in every order of events is a liveness statement about all executions; a test shows one that ends well.",
  ["uecho/controller.py:Controller.post_message", "uecho/controller.py:Controller.message_received", "uecho/protocol/message.py:Message.is_response_message", "uecho/local_node.py:LocalNode.message_received", "uecho/object.py:Object.message_received"])
p("C158", "Where nothing is lost, a search finds every device",
  "In a closed network in which every datagram that is sent arrives at each node it is for, a controller that has searched knows in the end each device there is, with exactly its objects.",
  "every number of devices and controllers, every history before the search, every sequence of calls and arrivals after it, every device; each node handling one message or call at a time",
  "Completeness of a search over all networks and all orders of arrival; a test searches one network once.",
  ["uecho/controller.py:Controller.search", "uecho/controller.py:Controller.message_received", "uecho/controller.py:Controller._add_found_node", "uecho/remote_node.py:RemoteNode.parse_message", "uecho/node_profile.py:NodeProfile", "uecho/local_node.py:LocalNode.message_received"])

p("C159", "A confirmed write was done",
  "In a closed network in which no program makes up confirmations, a controller that receives a confirmation of a write it sent (a response to SetC or to SetGet) can rely on it: at one moment since, all properties of the object it wrote to had the values it wrote, and, if it also read, those it read had the values it was given.",
  "every number of devices and controllers, every history before the request, every sequence of calls and arrivals after it, every request, every loss, repetition and delay of datagrams; each node handling one message or call at a time",
  "That a confirmation is never given for a write that was refused, partly done or overtaken is about all interleavings of the requests of all programs; a test writes once and looks.",
  ["uecho/object.py:Object.message_received", "uecho/local_node.py:LocalNode.message_received", "uecho/controller.py:Controller.post_message", "uecho/controller.py:Controller.message_received", "uecho/frame/manager.py:Manager.send_message"])

p("C160", "One reads what one wrote",
  "A controller that is the only one to write a property of a device, and that waits for the confirmation of each write, is given the value it wrote last when it then reads the property.",
  "every number of devices and controllers, every history, every sequence of calls and arrivals before and after the write, every loss, repetition and delay of datagrams; each node handling one message or call at a time",
  "Depends on when datagrams arrive, also old ones; a test writes and reads over a loopback that neither delays nor repeats.",
  ["uecho/object.py:Object.message_received", "uecho/local_node.py:LocalNode.message_received", "uecho/controller.py:Controller.post_message", "uecho/controller.py:Controller.message_received", "uecho/frame/unicast_server.py:UnicastServer"])

p("C161", "An answer to a read is a snapshot",
  "If a controller gets the values of the properties it asked a device for, then there was one moment since it asked at which the object had all these properties, readable, with exactly these values; values of different moments are never mixed. The answer comes from the object asked, and reading changes nothing.",
  "every number of devices and controllers, every history, every sequence of calls and arrivals, by whomever, between the question and the answer, every loss, repetition and delay of datagrams",
  "A test compares an answer with values it knows; whether an answer can mix values of two moments depends on what others write meanwhile.",
  ["uecho/object.py:Object.message_received", "uecho/local_node.py:LocalNode.message_received", "uecho/controller.py:Controller.post_message", "uecho/controller.py:Controller.message_received"])
p("C162", "A refusal has a reason",
  "If a controller gets the refusal of a request it sent, then there was one moment since at which some property asked for was not there, or could not be written or read as asked; at that moment all others that may be written were written, and the values given for those that may be read are theirs.",
  "every number of devices and controllers, every history, every request, every sequence of calls and arrivals between the request and the refusal, every loss, repetition and delay of datagrams",
  "Says of all requests and all states that nothing is refused without cause; a test shows some refusals that have one.",
  ["uecho/object.py:Object.message_received", "uecho/super_object.py:SuperObject.property_read_requested", "uecho/super_object.py:SuperObject.property_write_requested", "uecho/controller.py:Controller.message_received"])

p("C163", "Requests take effect in the order in which they are made",
  "If a controller has the answer to a request before it, or another controller, sends a second one, then the first took effect before the second, whichever nodes they were sent to: each request that is answered takes effect at once, at one moment between its being sent and its answer's arrival.",
  "every number of devices and controllers, every history, every two requests, every sequence of calls and arrivals, every loss, repetition and delay of datagrams",
  "Is about the order of all that happens on several nodes; a test sees one order.",
  ["uecho/local_node.py:LocalNode.message_received", "uecho/object.py:Object.message_received", "uecho/controller.py:Controller.post_message", "uecho/controller.py:Controller.message_received"])

p("C164", "Requests with one property that may change are handled as if one at a time",
  "Several threads of a node may handle requests for the same object at the same time, while the application changes data. If of the properties each request names at most one is one whose data may change, that is, that some request writes and may write, or that the application sets, nobody can tell: the answers, and the object in the end, are those of handling each request as a whole at one moment between its arrival and its answer.",
  "every object with the standard request handler, every number of threads, every sequence of messages of any kind about any number of properties of which at most one may change, every interleaving of the threads' steps with each other and with the application",
  "Linearizability is about all interleavings of any number of threads; a test runs a few.",
  ["uecho/object.py:Object.message_received", "uecho/object.py:Object.set_property_data", "uecho/super_object.py:SuperObject.property_read_requested", "uecho/super_object.py:SuperObject.property_write_requested", "uecho/frame/server.py:Server.run"])

p("C165", "A request with which no other interferes is handled as if alone",
  "Several threads of a node may handle requests for the same object at the same time. If, while a request about any number of properties is handled, nobody else stores data of one of these properties, then it is answered with what they were when it arrived, all at once, and leaves them as it would alone; it does not matter what others do with other properties.",
  "every object with the standard request handler, every number of threads and messages of any kind, every interleaving of their steps with each other and with the application",
  "Is about all interleavings; says exactly what has to be excluded for an answer to be a snapshot.",
  ["uecho/object.py:Object.message_received", "uecho/object.py:Object.set_property_data", "uecho/super_object.py:SuperObject.property_read_requested", "uecho/super_object.py:SuperObject.property_write_requested", "uecho/frame/server.py:Server.run"])

p("C166", "A device with busy threads handles datagrams as if one at a time",
  "Datagrams come to a device at several receiving threads, which work at the same time, while the program changes data and has the device announce and send messages. If each datagram that can be read has a transaction number, and names at most one property that may change, because some datagram writes it or the program sets it, nobody can tell: what is sent for each datagram, the threads that end, what the calls of the program send and return, and the data of the device in the end are those of handling each datagram as a whole at one moment after it is read and before anything is sent for it.",
  "every device with the standard request handler and working sockets, every number of receiving threads and of objects, every sequence of datagrams of any bytes from anywhere, every interleaving of the threads' steps with each other and with the program",
  "Linearizability of a whole node is about all interleavings of any number of threads and all bytes; a test runs a few.",
  ["uecho/frame/server.py:Server.run", "uecho/local_node.py:LocalNode.message_received", "uecho/object.py:Object.message_received", "uecho/object.py:Object.set_property_data", "uecho/frame/manager.py:Manager.send_message"])

p("C167", "A network of devices with busy threads behaves as if each handled one datagram at a time",
  "In a network of devices, whose receiving threads work at the same time, and controllers, each datagram that can be read at a device has a transaction number and names at most one property that may change, because some datagram to this device writes it or the device's program sets it. Then every history is one of the same network in which each device handles a datagram as a whole at one moment, with the same things said and the controllers in the same state. So what a program is told about the answer to its request is true: values that are read are those of one moment between the request and the answer; a refusal has its reason at one such moment; a confirmed write was done; a request made after the answer to another takes effect after it.",
  "every closed network of devices and controllers with standard handlers, any number of each and of receiving threads, every interleaving of the threads' steps with each other, with the programs and with the network, which may lose, delay, repeat and reorder datagrams",
  "It is about all interleavings of all threads of all devices of a network; a test runs a few on one machine.",
  ["uecho/frame/server.py:Server.run", "uecho/local_node.py:LocalNode.message_received", "uecho/object.py:Object.message_received", "uecho/controller.py:Controller.post_message", "uecho/controller.py:Controller.message_received"])

p("C168", "No receiving thread ever waits for another",
  "Whatever the threads of a device and its program have done so far, a thread that works on a datagram can go on, and one that is done can read the next. A thread is done with a datagram after two steps of its own for each property it names and two more, whatever the others do meanwhile. So no interplay of threads, no datagram and no stream of datagrams to others keeps a datagram from being dealt with.",
  "every device and every state of it and its sockets, every number of threads, every sequence of datagrams of any bytes, every interleaving of steps",
  "It is about all interleavings, also those in which the others never stop; a test that does not hang shows nothing of the kind.",
  ["uecho/frame/server.py:Server.run", "uecho/local_node.py:LocalNode.message_received", "uecho/object.py:Object.message_received", "uecho/super_object.py:SuperObject.property_read_requested"])

p("C169", "A busy device answers in time, with values it had",
  "A device whose receiving threads work at the same time, under the conditions of C166, is done with a datagram after two steps of its thread for each property the datagram names and two more, or earlier, whatever the other threads and the program do. It has then sent, once, what a device sends that handles one datagram at a time. A read of an object is answered, to the one who asked and with the number of the request, with values the object had at one moment in between; each of them is the value from the beginning, or one that the program has set or a datagram has asked for before the answer. If nobody writes the properties read, the answer is what the device would have said in the beginning.",
  "every device with standard handlers, every number of threads, every sequence of datagrams as in C166, every interleaving, every datagram of it",
  "It is about all interleavings, and about where every value in an answer can come from.",
  ["uecho/frame/server.py:Server.run", "uecho/local_node.py:LocalNode.message_received", "uecho/object.py:Object.message_received", "uecho/super_object.py:SuperObject.property_read_requested"])

p("C170", "A busy device gives what was written",
  "A device whose receiving threads work at the same time, under the conditions of C166, is done with a request to write a property before a request to read it comes, at the same thread or another. If all that anybody writes to this property from then on, or has begun to write before and not finished, is the same, the read gives what was written, whatever else was written to it earlier and whatever the device does meanwhile.",
  "every device with standard handlers, every number of threads, every sequence of datagrams as in C166, every interleaving, every pair of a write and a later read in it",
  "It is about all interleavings: the read may be handled by another thread than the write, while others write the same, or read, or the program announces.",
  ["uecho/frame/server.py:Server.run", "uecho/local_node.py:LocalNode.message_received", "uecho/object.py:Object.message_received", "uecho/object.py:Object.set_property_data"])

p("C171", "A busy device gives what its program has set",
  "The program of a device whose receiving threads work at the same time, under the conditions of C166, sets data of a property, and then a request to read comes. If all that anybody writes to this property from then on, or has begun to write before and not finished, is the same, the read gives what the program has set, whatever was written earlier and whatever the device does meanwhile. A request to write that was read before and not finished can undo what the program sets.",
  "every device with standard handlers, every number of threads, every sequence of datagrams as in C166, every interleaving, every setting by the program and later read in it",
  "It is about all interleavings: what the program sets may come between any two steps of threads that read or write the same object.",
  ["uecho/frame/server.py:Server.run", "uecho/local_node.py:LocalNode.message_received", "uecho/object.py:Object.message_received", "uecho/object.py:Object.set_property_data"])

p("C172", "What a busy device says does not depend on what else it does, unless values that change are read",
  "A datagram that does not read a property somebody changes comes to a device whose receiving threads work at the same time, under the conditions of C166; requests that only write are of this kind. What the device sends for it, and whether the thread survives, is what the device would have done in the beginning, alone, whatever happened before and whatever the other threads and the program do meanwhile. So every request to write with confirmation is answered once, to the one who asked and with the number of the request, within two steps of its thread for each property and two more, with 0x71 if all the properties can be written.",
  "every device with standard handlers, every number of threads, every sequence of datagrams as in C166, every interleaving, every datagram of it that reads nothing that somebody changes",
  "It is about all interleavings and all that may have happened to the device before.",
  ["uecho/frame/server.py:Server.run", "uecho/local_node.py:LocalNode.message_received", "uecho/object.py:Object.message_received"])

p("C173", "Two reads of a busy device agree on what nobody writes between them",
  "A device whose receiving threads work at the same time, under the conditions of C166, is done with a read before another read of the same object comes, at the same thread or another. If nobody writes a property from the first read on, and no request to write it was begun before and not finished, both answers give the same data for it, whatever was written to it earlier and whatever the device does meanwhile.",
  "every device with standard handlers, every number of threads, every sequence of datagrams as in C166, every interleaving, every pair of reads in it",
  "It is about all interleavings: the reads may be handled by different threads, while others read or write other properties.",
  ["uecho/frame/server.py:Server.run", "uecho/local_node.py:LocalNode.message_received", "uecho/object.py:Object.message_received", "uecho/super_object.py:SuperObject.property_read_requested"])

if __name__ == "__main__":
    out = os.path.join(os.path.dirname(__file__), "..", "properties.jsonl")
    with open(out, "w") as f:
        for x in P: f.write(json.dumps(x) + "\n")
    print(len(P))
