{"id": "C01", "title": "Chunk boundaries are invisible in decoded text (UTF-8, Latin-1)", "statement": "Delivering a byte sequence to a UTF-8 or Latin-1 stream in any number of pieces of any size and then closing it makes the reader see exactly the characters seen when the whole sequence is delivered at once: no character is lost, duplicated or replaced because a multi-byte sequence was cut by a packet boundary.", "quantifier": "every byte sequence (valid or malformed), every way of cutting it into pieces, every supported non-UTF-16 encoding", "why_tests_cant": "The number of cut patterns is exponential in the input and the interesting cases are cuts inside malformed sequences.", "anchors": ["crates/gosub_shared/src/byte_stream.rs: ByteStream::append_str, decode_from, read_from_bytes, close"]}
{"id": "C02", "title": "Source locations are exact", "statement": "The line and column reported for any offset equal the line and column obtained by scanning the decoded text from its start, whatever the chunking of the input and whatever locations were asked for before.", "quantifier": "every text, every chunking, every sequence of earlier location queries, every offset", "why_tests_cant": "The line table is extended incrementally and queried through a cached hint, so the answer could depend on arbitrary history.", "anchors": ["crates/gosub_shared/src/byte_stream.rs: location, extend_line_starts, line_starts, last_line_idx"]}
{"id": "C03", "title": "Stepping back undoes reading one character", "statement": "After reading one character (including a CR LF pair read as one) a single step back returns the stream to the position before the read, so the same character is read again.", "quantifier": "every text, every position reachable by reading from the start, every newline configuration", "why_tests_cant": "Requires all placements of CR and LF around the read position.", "anchors": ["crates/gosub_shared/src/byte_stream.rs: read_and_next, prev, prev_n"]}
{"id": "C04", "title": "Reading consumes the text exactly once", "statement": "Repeatedly reading until end of stream terminates, yields the decoded text with each CR LF collapsed to LF (and nothing else changed under the default configuration), and never moves the position past the end.", "quantifier": "every text and every configuration of newline handling", "why_tests_cant": "Unbounded input lengths and all CR/LF adjacency patterns.", "anchors": ["crates/gosub_shared/src/byte_stream.rs: read, read_and_next, next_n, exhausted, eof"]}
{"id": "C05", "title": "Look-ahead and bookmarks have no side effect", "statement": "Peeking, slicing, asking for a location and seeking back to a previously told offset leave everything that is subsequently read unchanged.", "quantifier": "every stream state and every sequence of peeks, slices, tells and seeks", "why_tests_cant": "Needs all interleavings of the non-consuming calls.", "anchors": ["crates/gosub_shared/src/byte_stream.rs: look_ahead, get_slice, tell_bytes, seek_bytes, mark"]}
{"id": "C06", "title": "Chunk boundaries are invisible in UTF-16 text", "statement": "Delivering UTF-16 bytes in any number of pieces gives the characters seen when delivered at once.", "quantifier": "every byte sequence, every way of cutting it into pieces, both byte orders", "why_tests_cant": "Surrogate pairs may be cut at any of the byte positions inside a four-byte sequence.", "anchors": ["crates/gosub_shared/src/byte_stream.rs: decode_from (UTF16LE/UTF16BE), decode_utf16_char"]}
{"id": "C07", "title": "At most one cookie per name, domain and path", "statement": "However many responses are processed, an origin never holds two cookies with the same name, domain and path; storing one again replaces value and attributes and keeps the original creation time.", "quantifier": "every history of responses, removals and purges on a jar", "why_tests_cant": "An invariant over unbounded operation histories.", "anchors": ["crates/gosub_engine/src/engine/cookies/cookie_jar.rs: store_response_cookies, DefaultCookieJar"]}
{"id": "C08", "title": "A request carries exactly the matching cookies", "statement": "The Cookie header for a request contains a stored cookie if and only if the cookie is unexpired, allowed by the third-party policy and its SameSite attribute, its domain (or host-only origin) matches, its path matches and it is not a secure cookie on an insecure request.", "quantifier": "every jar contents, request URL, top-level site context, policy and clock value", "why_tests_cant": "A product of independent conditions over all stored cookies; tests sample a few cells of the product.", "anchors": ["crates/gosub_engine/src/engine/cookies/cookie_jar.rs: get_request_cookies"]}
{"id": "C09", "title": "Secure cookies never leave over an insecure channel", "statement": "A cookie marked Secure is never stored from, nor sent to, a non-https URL, over any history of operations.", "quantifier": "every history of responses and requests", "why_tests_cant": "Safety property over unbounded histories.", "anchors": ["crates/gosub_engine/src/engine/cookies/cookie_jar.rs: store_response_cookies, get_request_cookies"]}
{"id": "C10", "title": "Expired cookies are gone", "statement": "A cookie whose expiry has passed is never sent; Max-Age of zero or less removes the matching cookie at once; purging removes exactly the expired cookies and no others; Max-Age takes precedence over Expires.", "quantifier": "every jar, clock value and Set-Cookie attribute combination", "why_tests_cant": "Ranges over all clock values and attribute combinations.", "anchors": ["crates/gosub_engine/src/engine/cookies/cookie_jar.rs: store_response_cookies, get_request_cookies, purge_expired"]}
{"id": "C11", "title": "Cross-site cookie rules", "statement": "On a cross-site request Strict cookies are never sent, Lax cookies only on top-level safe-method navigation, and None cookies only if also Secure; with third-party cookies blocked nothing is stored or sent on a third-party request.", "quantifier": "every cookie, request context and policy", "why_tests_cant": "The decision table must hold for every jar and history, not only for the listed rows.", "anchors": ["crates/gosub_engine/src/engine/cookies/cookie_jar.rs: same_site, SameSiteContext, ThirdPartyCookiePolicy, get_request_cookies, store_response_cookies"]}
{"id": "C12", "title": "Cookie domain isolation", "statement": "A response can only set cookies for its own host or a parent domain of it that is not a public suffix; a cookie without a Domain attribute is only sent back to the origin that set it; a domain cookie is only sent to hosts equal to or below its domain.", "quantifier": "every host, Domain attribute, public-suffix list and history", "why_tests_cant": "All label structures of hosts and domain strings, including degenerate ones.", "anchors": ["crates/gosub_engine/src/engine/cookies/cookie_jar.rs: is_valid_cookie_domain, store_response_cookies, get_request_cookies"]}
{"id": "C13", "title": "Cookie name prefixes are enforced", "statement": "Every stored cookie whose name starts with __Secure- was set over https with Secure, and every stored cookie whose name starts with __Host- additionally has no Domain attribute and path /.", "quantifier": "every history of responses", "why_tests_cant": "Invariant over all stored cookies in all reachable jars.", "anchors": ["crates/gosub_engine/src/engine/cookies/cookie_jar.rs: store_response_cookies"]}
{"id": "C14", "title": "Cookie header ordering", "statement": "Cookies in a header are ordered by decreasing path length and, for equal length, by increasing creation time; the header contains each sent cookie once.", "quantifier": "every jar and request", "why_tests_cant": "Sorting correctness over all jars.", "anchors": ["crates/gosub_engine/src/engine/cookies/cookie_jar.rs: get_request_cookies"]}
{"id": "C15", "title": "Acknowledged cookie changes survive a restart", "statement": "After any mutating call on a persistent cookie jar returns, discarding the process and reopening the store yields a jar with the same cookies.", "quantifier": "every history of mutations and every restart point between calls", "why_tests_cant": "Crash points are unbounded and cannot be enumerated by tests.", "anchors": ["crates/gosub_engine/src/engine/cookies/persistent_cookie_jar.rs", "crates/gosub_engine/src/engine/cookies/store/json.rs: persist_zone_from_snapshot, save_file, load_file", "crates/gosub_engine/src/engine/cookies/store/sqlite.rs: save_zone, load_zone"]}
{"id": "C16", "title": "A crash during a cookie save never corrupts the file", "statement": "If the process dies at any point during a save, the cookie file on disk afterwards is either the complete previous contents or the complete new contents.", "quantifier": "every crash point in the sequence of file operations and every old/new contents", "why_tests_cant": "Needs a fault at each individual file-system step.", "anchors": ["crates/gosub_engine/src/engine/cookies/store/json.rs: save_file"]}
{"id": "C17", "title": "One live jar per zone", "statement": "For any schedule of threads asking for the jar of a zone, all of them receive the same live jar as long as the zone is not released.", "quantifier": "every interleaving of any number of jar lookups, releases and snapshots", "why_tests_cant": "Thread schedules.", "anchors": ["crates/gosub_engine/src/engine/cookies/store.rs: provision_persistent_jar", "crates/gosub_engine/src/engine/cookies/store/json.rs: jar_for, release_zone", "crates/gosub_engine/src/engine/cookies/store/sqlite.rs: jar_for"]}
{"id": "C18", "title": "Zones do not overwrite each other's cookies", "statement": "Persisting one zone's cookies leaves the stored cookies of every other zone as they were last persisted.", "quantifier": "every set of zones and every schedule of their persists", "why_tests_cant": "Thread schedules of read-modify-write on a shared file.", "anchors": ["crates/gosub_engine/src/engine/cookies/store/json.rs: persist_zone_from_snapshot"]}
{"id": "C19", "title": "Web storage areas are isolated maps", "statement": "A storage area returned for a zone, partition and origin (and tab, for session storage) behaves as a map from keys to values, and writes through one area are visible exactly through handles with the same identity.", "quantifier": "every history of area lookups, writes, removals and clears over all identities", "why_tests_cant": "Refinement over unbounded histories and identities.", "anchors": ["crates/gosub_engine/src/engine/storage/session/in_memory.rs", "crates/gosub_engine/src/engine/storage/local/in_memory.rs", "crates/gosub_engine/src/engine/storage/area.rs"]}
{"id": "C20", "title": "Closing a tab discards exactly its session storage", "statement": "After a tab is dropped its session data is unreachable, no later write through an old handle brings any of it back, and other tabs' data is unchanged.", "quantifier": "every history with handles held across the drop", "why_tests_cant": "Histories with stale handles.", "anchors": ["crates/gosub_engine/src/engine/storage/session/in_memory.rs: drop_tab"]}
{"id": "C21", "title": "Storage events describe what happened", "statement": "The published storage events, replayed in order on an empty map, reproduce the contents of the area; each event's old value is the value before the change and no event is published for a change that did nothing.", "quantifier": "every history of writes, removals and clears", "why_tests_cant": "Needs all histories, including overwriting with the same value.", "anchors": ["crates/gosub_engine/src/engine/storage/service.rs: NotifyingArea", "crates/gosub_engine/src/engine/storage/event.rs"]}
{"id": "C22", "title": "Partitions never share data", "statement": "Two areas whose partition keys differ, or whose origins differ, never observe each other's data in any of the storage backends.", "quantifier": "all partition keys and origins", "why_tests_cant": "Requires injectivity of the key encodings over all strings.", "anchors": ["crates/gosub_engine/src/engine/storage/session/in_memory.rs", "crates/gosub_engine/src/engine/storage/local/sqlite_store.rs", "crates/gosub_engine/src/engine/storage/types.rs: PartitionKey"]}
{"id": "C23", "title": "Tab history never loses entries", "statement": "Navigating, going back or forward or jumping never removes or renumbers an entry: every entry ever visited remains reachable by its id with its own predecessor unchanged.", "quantifier": "every sequence of navigations, replacements, back, forward and jumps", "why_tests_cant": "Unbounded histories and branching.", "anchors": ["crates/gosub_engine/src/engine/tab/history.rs: push, replace_current_url, go_back, go_forward, go_to, snapshot"]}
{"id": "C24", "title": "Back then forward returns to the same page", "statement": "Whenever going back succeeds, going forward without choosing a branch returns to the entry that was left; going back repeatedly reaches the first entry after finitely many steps.", "quantifier": "every reachable history state", "why_tests_cant": "Branching histories of any depth.", "anchors": ["crates/gosub_engine/src/engine/tab/history.rs: back_target, forward_targets, go_back, go_forward"]}
{"id": "C25", "title": "A pending decision is answered at most once", "statement": "Every registered decision request receives at most one answer, answers go to the request they name, and an answer for an unknown or already answered request is refused.", "quantifier": "every interleaving of registrations and fulfilments", "why_tests_cant": "Schedules of concurrent fulfilments.", "anchors": ["crates/gosub_engine/src/net/decision_hub.rs: register, fulfill"]}
{"id": "C26", "title": "Request groups are cleaned up exactly once", "statement": "A request group is removed from the registry exactly when its last request has finished and it has been finalized, in whichever order these happen, and both lookup directions always agree.", "quantifier": "every interleaving of increments, decrements and finalizations", "why_tests_cant": "Race between the last decrement and finalization.", "anchors": ["crates/gosub_engine/src/net/req_ref_tracker.rs: RefRegistry, RequestRefTracker"]}
{"id": "C27", "title": "nosniff disables content sniffing", "statement": "For a response carrying X-Content-Type-Options: nosniff the handling decision does not depend on the response body.", "quantifier": "every response head, body prefix, destination and policy", "why_tests_cant": "Two-run (hyper)property over all bodies.", "anchors": ["crates/gosub_engine/src/net/decision.rs: decide_handling", "crates/gosub_engine/src/net/decision/sniff.rs: sniff_class"]}
{"id": "C28", "title": "Subresources are only used for what they were requested for", "statement": "A subresource response is delivered only when its resolved type is one the requesting destination accepts, and is blocked otherwise; an attachment is downloaded rather than rendered when downloads are allowed.", "quantifier": "every destination, class, disposition and policy", "why_tests_cant": "Full decision table over all sniffed and declared types.", "anchors": ["crates/gosub_engine/src/net/router.rs: route_response_for", "crates/gosub_engine/src/net/decision.rs: decide_handling"]}
{"id": "C29", "title": "Text shown as a document cannot inject markup", "statement": "The page generated to show a text (or JSON) response contains the text in escaped form: un-escaping the body gives back the text exactly and the text contributes no tag delimiter to the page.", "quantifier": "every text", "why_tests_cant": "All strings, including ones that look like entities or tags.", "anchors": ["crates/gosub_engine/src/net/router.rs: html_escape, text_document_html, json_document_html, json_lines"]}
{"id": "C30", "title": "Settings always have their declared type and satisfy their constraint", "statement": "After any sequence of successful and rejected set and remove calls, the value read for a known key has the declared type and satisfies the declared constraint, and a rejected set changes nothing.", "quantifier": "every schema and every history of calls", "why_tests_cant": "Invariant over histories for all schemas.", "anchors": ["crates/gosub_config/src/lib.rs: set, remove, get", "crates/gosub_config/src/settings.rs: Constraint"]}
{"id": "C31", "title": "Settings store behaves as a map with defaults", "statement": "Reading a key gives the last value successfully set and not removed, otherwise its default; operations on one key do not affect another; merging a schema never overrides a known key.", "quantifier": "every history over all keys", "why_tests_cant": "Refinement over unbounded histories.", "anchors": ["crates/gosub_config/src/lib.rs: get, set, remove, merge, snapshot"]}
{"id": "C32", "title": "Setting change notifications", "statement": "A change notification reaches exactly the live subscriptions whose key pattern matches, once each, exactly when the stored value changed; subscription ids are never reused.", "quantifier": "every history of subscribe, unsubscribe, set and remove", "why_tests_cant": "Histories with interleaved subscription changes.", "anchors": ["crates/gosub_config/src/lib.rs: subscribe, unsubscribe, matching_callbacks"]}
{"id": "C33", "title": "Settings survive their text form", "statement": "Writing a setting to its text form and parsing it back gives the same setting.", "quantifier": "every setting value of every type", "why_tests_cant": "All strings and lists including separators.", "anchors": ["crates/gosub_config/src/settings.rs: Display, FromStr"]}
{"id": "C34", "title": "A failed persistent write leaves the old setting", "statement": "If the backing storage refuses or fails a write, the value read afterwards is the one before the call.", "quantifier": "every history and every failing write", "why_tests_cant": "Fault injection at each write.", "anchors": ["crates/gosub_config/src/lib.rs: set", "crates/gosub_config/src/storage.rs", "crates/gosub_config/src/storage/json.rs"]}
{"id": "C35", "title": "The document tree has no cycles", "statement": "No sequence of document mutations makes a node its own descendant, so walking down from any node, or up from any node, terminates.", "quantifier": "every sequence of create, attach, detach, relocate and delete calls", "why_tests_cant": "Invariant over unbounded mutation histories.", "anchors": ["crates/gosub_html5/src/document/document_impl.rs: attach_node, detach_node, relocate_node, delete_node_by_id, has_node_id_recursive"]}
{"id": "C36", "title": "Parent and child links agree", "statement": "A node lists a child exactly once if and only if that child names it as its parent.", "quantifier": "every sequence of document mutations", "why_tests_cant": "Invariant over unbounded mutation histories.", "anchors": ["crates/gosub_html5/src/document/document_impl.rs: attach_node, detach_node, relocate_node, delete_node_by_id"]}
{"id": "C37", "title": "Traversal visits each node once in document order", "statement": "The tree iterator visits exactly the nodes in the document tree, each once, every node before its descendants and siblings in order.", "quantifier": "every document tree", "why_tests_cant": "All tree shapes of any depth.", "anchors": ["crates/gosub_html5/src/document/document_impl.rs: TreeIterator"]}
{"id": "C38", "title": "Node ids are never reused", "statement": "Every created node gets an id no earlier node ever had, and the node count equals the number of live nodes.", "quantifier": "every history of creations and deletions", "why_tests_cant": "Invariant over histories.", "anchors": ["crates/gosub_html5/src/node/arena.rs", "crates/gosub_html5/src/document/document_impl.rs: register_node, delete_node_by_id"]}
{"id": "C39", "title": "Queued document edits hit the nodes they were issued for", "statement": "The node id handed out when an edit is queued is the id of the node the edit creates when the queue is flushed.", "quantifier": "every queue contents and document, when only the queue edits the document in between", "why_tests_cant": "Unbounded queues with dependent edits.", "anchors": ["crates/gosub_html5/src/document/task_queue.rs: create_element, create_text, create_comment, flush"]}
{"id": "C40", "title": "Looking up an element by id is accurate", "statement": "Looking up an id returns an element of the document whose id attribute currently has that value, if one exists.", "quantifier": "every history of attribute and node mutations", "why_tests_cant": "Index maintained incrementally over histories.", "anchors": ["crates/gosub_html5/src/document/document_impl.rs: set_attribute, remove_attribute, on_document_node_mutation, node_by_named_id, delete_node_by_id"]}
{"id": "C41", "title": "Class lists reflect the class attribute", "statement": "After the class attribute is set or removed, an element has exactly the classes named in the attribute.", "quantifier": "every sequence of attribute mutations and every attribute value", "why_tests_cant": "All whitespace layouts and histories.", "anchors": ["crates/gosub_html5/src/node/data/element.rs: ClassListImpl, add_attribute, remove_attribute"]}
{"id": "C42", "title": "Hover state is ancestor closed", "statement": "Hovering an element marks exactly that element and its ancestors as hovered.", "quantifier": "every document tree and element", "why_tests_cant": "All tree shapes and depths.", "anchors": ["crates/gosub_html5/src/document/document_impl.rs: set_hovered_nodes, is_hovered"]}
{"id": "C43", "title": "Selector matching agrees with the CSS definition", "statement": "A complex selector is reported as matching an element exactly when the CSS selectors definition says so, for descendant, child and sibling combinators over compound selectors.", "quantifier": "every selector, document tree and element", "why_tests_cant": "Greedy ancestor search can only be refuted or justified over all trees.", "anchors": ["crates/gosub_css3/src/matcher/styling.rs: match_selector, match_selector_parts, match_selector_part"]}
{"id": "C44", "title": "Cascade winner", "statement": "The value used for a property is the one of the declaration that is greatest by origin-and-importance, then specificity, then order of appearance.", "quantifier": "every multiset and order of declarations", "why_tests_cant": "All lists of declarations.", "anchors": ["crates/gosub_css3/src/matcher/styling.rs: DeclarationProperty::cmp, priority, find_cascaded_value", "crates/gosub_css3/src/stylesheet.rs: Specificity"]}
{"id": "C45", "title": "Selector specificity", "statement": "The specificity used for a matched rule counts ids, then classes, attributes and pseudo-classes, then types and pseudo-elements, of the most specific matching selector in the list.", "quantifier": "every selector list and element", "why_tests_cant": "All selectors.", "anchors": ["crates/gosub_css3/src/stylesheet.rs: Specificity::from", "crates/gosub_css3/src/matcher/styling.rs: match_selector"]}
{"id": "C46", "title": "Hover changes only restyle what can change", "statement": "If no element whose hover state changed has a tag, class or id in the stylesheet's hover fingerprint (and the fingerprint is not universal), then no selector's match result changes for any element.", "quantifier": "every stylesheet, document and pair of hover states", "why_tests_cant": "Two-state property over all selectors and trees.", "anchors": ["crates/gosub_css3/src/system.rs: hover_fingerprints_impl", "crates/gosub_css3/src/matcher/styling.rs: match_selector_part"]}
{"id": "C47", "title": "Custom properties resolve to the nearest definition", "statement": "var(--x) resolves to the value declared for --x on the nearest element, starting from the element itself and going up, that declares it, else to the fallback.", "quantifier": "every document tree, stylesheet and variable name", "why_tests_cant": "All tree depths and rule orders.", "anchors": ["crates/gosub_css3/src/system.rs: collect_custom_props", "crates/gosub_css3/src/functions/var.rs: resolve_var"]}
{"id": "C48", "title": "Box shorthand expansion", "statement": "A one- to four-value box shorthand assigns top, right, bottom and left as CSS prescribes, for each number of values, regardless of earlier rules.", "quantifier": "all values and numbers of values and previous declarations", "why_tests_cant": "Stateful multiplier counter carried across rules.", "anchors": ["crates/gosub_css3/src/matcher/shorthands.rs: Multiplier::get_names, FixList::insert, reset_multiplier, CompleteStep::complete"]}
{"id": "C49", "title": "Hex colours", "statement": "Every 3, 4, 6 or 8 digit hex colour parses to the channel values CSS prescribes, case-insensitively, and writing channels in hex and parsing gives them back.", "quantifier": "all hex colour strings", "why_tests_cant": "4 billion eight-digit strings.", "anchors": ["crates/gosub_css3/src/colors.rs: parse_hex, is_hex, convert_from_hex_str_to_vec_of_ints"]}
{"id": "C50", "title": "Numeric character references", "statement": "A decimal or hexadecimal character reference of any length decodes to the character HTML prescribes: never NUL, a surrogate or a value outside Unicode; overlong numbers give U+FFFD.", "quantifier": "all digit strings of any length", "why_tests_cant": "Unbounded digit strings and 32-bit overflow points.", "anchors": ["crates/gosub_html5/src/tokenizer/character_reference.rs: consume_character_reference", "crates/gosub_html5/src/tokenizer/replacement_tables.rs: TOKEN_REPLACEMENTS"]}
{"id": "C51", "title": "Named character references use the longest match", "statement": "A named reference consumes the longest known entity name that is a prefix of the remaining input and is replaced by its text, unless it stands in an attribute, lacks its semicolon and is followed by '=', a letter or a digit; then, and when no name matches, the text stays as written and nothing is lost.", "quantifier": "every input, in text and in attributes, and every entity table whose names are letters and digits with an optional final ';' (the engine's own table included)", "why_tests_cant": "All inputs with nested entity prefixes.", "anchors": ["crates/gosub_html5/src/tokenizer/character_reference.rs: find_entity"]}
{"id": "C52", "title": "Table cells do not overlap", "statement": "Laying out a table section places every source cell, in order, inside the grid, with its spans clamped to the section, and no two cells occupy the same slot.", "quantifier": "every section: any number of rows, cells and spans", "why_tests_cant": "All combinations of row and column spans.", "anchors": ["crates/gosub_lattice/src/grid.rs: build_section_grid"]}
{"id": "C53", "title": "Table geometry follows the grid", "statement": "Cells that share no slot get boxes at least one border spacing apart, inside their row, row group and the table; cells starting or ending in the same row start or end at the same height, so a spanning cell covers exactly its rows and columns plus the gutters between them.", "quantifier": "all tables, column widths, row heights, spans and spacings", "why_tests_cant": "All sizes and tree shapes (exact arithmetic).", "anchors": ["crates/gosub_lattice/src/compute.rs: col_x_offsets, row_y_offsets, section_height, place_rows, place_cell", "crates/gosub_render_pipeline/src/layouter/table.rs: apply_recursive"]}
{"id": "C54", "title": "Every painted element is in exactly one layer", "statement": "Splitting a layout tree into layers puts every element of the tree in exactly one layer, keeps parents before children within a layer, and orders layers by stacking level, ties in document order.", "quantifier": "every layout tree and style assignment", "why_tests_cant": "All tree shapes.", "anchors": ["crates/gosub_render_pipeline/src/layering/layer.rs: generate_layers, traverse, new_promoted_layer"]}
{"id": "C55", "title": "Tile eviction respects the budget and what is visible", "statement": "Enforcing the tile memory budget never evicts protected tiles, evicts only while over budget, leaves at most the budget resident unless only protected tiles remain, and reports exactly what it evicted.", "quantifier": "every set of tiles, budget and scroll position", "why_tests_cant": "All tile sets and shared buffers.", "anchors": ["crates/gosub_render_pipeline/src/tile_budget.rs: TileBudget::enforce"]}
{"id": "C56", "title": "Compositing never writes outside its target", "statement": "Compositing tiles at any scroll position writes only inside the target rectangle of the buffer and never indexes outside the buffer or the tile.", "quantifier": "all tile positions, sizes, scroll offsets and target rectangles", "why_tests_cant": "All integer positions around the clipping edges.", "anchors": ["crates/gosub_render_pipeline/src/render/tile_composite.rs: composite_tiles"]}
{"id": "C57", "title": "Hit testing returns the topmost element", "statement": "The element found at a point of the viewport is the last one in paint order, over all layers, whose box contains the point at the place where the compositor draws that layer (scrolled, fixed or sticky).", "quantifier": "every layer list, scroll position and point", "why_tests_cant": "All layer arrangements and scroll positions.", "anchors": ["crates/gosub_render_pipeline/src/layering/layer.rs: find_element_at", "crates/gosub_interface/src/render/backend.rs: anchored_tile_pos"]}
{"id": "C58", "title": "Visited pages ranking", "statement": "After any history of visits and clearings, the visited-page query returns exactly the pages visited since the last clearing whose URL or title contains the query regardless of case, each once with its number of visits, last time and last non-empty title, best-ranked (visits, then recency) first, at most the requested number, and never leaves out a better-ranked page in favour of a worse one; the in-memory and the SQLite store answer alike.", "quantifier": "every history of calls at any times, every query and limit, every order SQLite may give equal ranks", "why_tests_cant": "All visit histories and all queries.", "anchors": ["crates/gosub_engine/src/engine/places.rs: MemoryPlaces", "crates/gosub_engine/src/engine/places.rs: SqlitePlaces"]}
{"id": "C59", "title": "Loading new contents replaces the old", "statement": "Loading a string, a file or a byte slice into a character stream makes it hold exactly the new text with reading starting at its beginning, whatever it held before.", "quantifier": "every prior stream state and every new text", "why_tests_cant": "The failure depends on what the stream decoded before; unit tests load into fresh streams only.", "anchors": ["crates/gosub_shared/src/byte_stream.rs: read_from_str, read_from_file, read_from_bytes"]}
{"id": "C60", "title": "Cookie header is unambiguous", "statement": "Splitting a returned Cookie header at ';', trimming the pieces and splitting each at its first '=' gives back the names and values of exactly the sent cookies, in order: no stored cookie can smuggle a second pair into the header.", "quantifier": "every history of Set-Cookie headers (any text), every request", "why_tests_cant": "Depends on every name and value any server may send, and on every combination of cookies in one header.", "anchors": ["crates/gosub_engine/src/engine/cookies/cookie_jar.rs: DefaultCookieJar::store_response_cookies", "crates/gosub_engine/src/engine/cookies/cookie_jar.rs: DefaultCookieJar::get_request_cookies"]}
{"id": "C61", "title": "Removing cookies is exact", "statement": "Removing a cookie by URL and name removes the cookies of that name of that origin and nothing else; removing a URL's cookies removes exactly that origin's; clearing leaves none.", "quantifier": "every jar, URL, name, origin and cookie", "why_tests_cant": "Needs every other cookie of the jar to be unaffected, for every jar.", "anchors": ["crates/gosub_engine/src/engine/cookies/cookie_jar.rs: DefaultCookieJar::remove_cookie", "crates/gosub_engine/src/engine/cookies/cookie_jar.rs: DefaultCookieJar::remove_cookies_for_url", "crates/gosub_engine/src/engine/cookies/cookie_jar.rs: DefaultCookieJar::clear"]}
{"id": "C62", "title": "Constraint texts parse totally and round trip", "statement": "Parsing the text of a settings constraint never aborts, and the permitted values of the resulting constraint, written as a comma-separated list, parse back to the same constraint.", "quantifier": "every constraint text", "why_tests_cant": "All texts, with every mixture of numbers, signs, dashes and Unicode characters.", "anchors": ["crates/gosub_config/src/settings.rs: Constraint::parse, tokens, parse_range_token"]}
{"id": "C64", "title": "Invalid declarations have no effect", "statement": "A declaration whose value does not match the grammar of its property changes the value of no property, whatever is declared before and after it.", "quantifier": "every property definition, value and list of other declarations", "why_tests_cant": "All values that match a grammar in part.", "anchors": ["crates/gosub_css3/src/system.rs: compute_properties", "crates/gosub_css3/src/matcher/syntax_matcher.rs: matches_and_shorthands, match_component_inner", "crates/gosub_css3/src/matcher/shorthands.rs: CompleteStep::complete, FixList"]}
{"id": "C65", "title": "Table rows are tall enough", "statement": "Every table cell gets a box at least as tall as its content laid out in that box's width plus border and padding, and as its specified height; cells covering the same rows get the same height.", "quantifier": "all tables, contents, widths and spans", "why_tests_cant": "Content height is an arbitrary function of the width.", "anchors": ["crates/gosub_lattice/src/sizing/rows.rs: compute_row_heights", "crates/gosub_lattice/src/compute.rs: place_cell"]}
{"id": "C66", "title": "Table columns line up and share the width", "statement": "All cells starting (ending) in a column start (end) at the same x in every row and group; a column whose first-row cell specifies a width gets it, but no less than the cell's content; columns without one share exactly what is left when the needs fit, and no column is narrower than its content.", "quantifier": "all tables, widths, contents and spans", "why_tests_cant": "All combinations of specified, narrow and wide columns.", "anchors": ["crates/gosub_lattice/src/sizing/columns.rs: compute_column_widths", "crates/gosub_lattice/src/compute.rs: compute_table_layout"]}
{"id": "C67", "title": "Every part of a table is laid out once", "statement": "Laying out a table with at least one cell gives every row group, row and cell of the table exactly one box, and gives boxes to nothing else; bare rows and cells included.", "quantifier": "every table tree", "why_tests_cant": "All nestings of groups, bare rows and bare cells.", "anchors": ["crates/gosub_lattice/src/model.rs: build_model", "crates/gosub_lattice/src/compute.rs: compute_table_layout"]}
{"id": "C68", "title": "Descendants are painted over their ancestors", "statement": "When no z-index is negative, an element is painted after every one of its ancestors, so the background of an ancestor never hides it.", "quantifier": "every layout tree and style assignment without negative z-index", "why_tests_cant": "All nestings of stacking levels and layers.", "anchors": ["crates/gosub_render_pipeline/src/layering/layer.rs: traverse, generate_layers"]}
{"id": "C69", "title": "Unpositioned content paints in document order", "statement": "On a page where nothing is positioned, translucent, fixed or sticky, elements are painted in document order, so later content covers earlier content.", "quantifier": "every such layout tree", "why_tests_cant": "All trees.", "anchors": ["crates/gosub_render_pipeline/src/layering/layer.rs: traverse, generate_layers"]}
{"id": "C70", "title": "Sticky elements stick and stay in their container", "statement": "A sticky element is drawn in the flow until it would cross its inset, then at the inset, and never leaves its container; everything in its layer moves with it.", "quantifier": "every sticky element of every page, every scroll position, inset and container", "why_tests_cant": "All scroll positions and geometries.", "anchors": ["crates/gosub_interface/src/render/backend.rs: StickyConstraint::offset, anchored_tile_pos", "crates/gosub_render_pipeline/src/layering/layer.rs: sticky_constraint, traverse"]}
{"id": "C71", "title": "Opacity is applied exactly once", "statement": "An element is faded by the product of its own opacity and those of its ancestors: never twice by the same one, and by none of them too few.", "quantifier": "every layout tree and assignment of opacities", "why_tests_cant": "All nestings of translucent groups.", "anchors": ["crates/gosub_render_pipeline/src/layering/layer.rs: traverse, is_opacity_grouped, layer_opacity", "crates/gosub_render_pipeline/src/painter.rs: apply_opacity"]}
{"id": "C72", "title": "Fixed elements do not scroll", "statement": "A fixed element and everything in it is drawn at the same place of the viewport whatever the scroll position.", "quantifier": "every layout tree, scroll position and descendant of a fixed element", "why_tests_cant": "All trees and scroll positions.", "anchors": ["crates/gosub_render_pipeline/src/layering/layer.rs: traverse", "crates/gosub_interface/src/render/backend.rs: anchored_tile_pos"]}
{"id": "C73", "title": "Scrolling never shows what is missing", "statement": "If the tile budget asks for no new raster at a scroll position, then no row on screen belongs to a tile evicted since the last full raster, and every row on screen lies in the rastered window (to within half a pixel); a full raster followed by eviction asks for nothing until the scroll position has moved by half a viewport; only dirty, scrolling tiles more than one viewport away are put off; a frame marks exactly the tiles on screen as used last.", "quantifier": "every history of rasters, frames, evictions and resets, every set of tiles and every scroll position", "why_tests_cant": "The property ties together calls made at different times over an unbounded history.", "anchors": ["crates/gosub_render_pipeline/src/tile_budget.rs: needs_rerender, note_rastered_window, note_full_raster, touch_composited, defer_tiles_outside_window, raster_window, refresh_window"]}
{"id": "C74", "title": "Pixel arithmetic is exact to the rounding", "statement": "Fading a pixel scales every channel by the opacity in 255ths rounded to the nearest and keeps it premultiplied; blending a premultiplied pixel over another gives each channel plus what shows through, rounded to the nearest, without overflow, premultiplied over premultiplied and opaque over opaque; both byte orders give the same channels.", "quantifier": "all 32-bit pixels and all opacities", "why_tests_cant": "2^64 pairs of pixels; packed arithmetic with carries between channels.", "anchors": ["crates/gosub_interface/src/render/backend.rs: blend_over_argb_u32, scale_premul_argb_u32, mul_div255_pair, PixelFormat", "crates/gosub_render_pipeline/src/render/tile_composite.rs: argb_u32_to_rgba8"]}
{"id": "C75", "title": "No seams between tiles", "statement": "Tiles that are side by side on the page are side by side on screen: every row and column between them is covered by exactly one.", "quantifier": "all scroll offsets, device pixel ratios and tile positions", "why_tests_cant": "All fractional positions.", "anchors": ["crates/gosub_render_pipeline/src/render/tile_composite.rs: composite_tiles"]}
{"id": "C76", "title": "Bookmarks follow the calls", "statement": "After any history of calls a URL is reported as bookmarked exactly when it was added and not removed since; the list holds one bookmark per URL with the time of the first addition since the last removal and the title of the last, oldest first; both stores hold the same bookmarks, and history calls leave them alone.", "quantifier": "every history of calls at any times", "why_tests_cant": "All histories.", "anchors": ["crates/gosub_engine/src/engine/places.rs: add_bookmark", "crates/gosub_engine/src/engine/places.rs: remove_bookmark", "crates/gosub_engine/src/engine/places.rs: bookmarks"]}
{"id": "C77", "title": "History queries are literal", "statement": "The text a user types into the history search is matched as it is: the pattern given to SQLite matches a text exactly when the query occurs in it up to ASCII case, whatever wildcard or escape characters it contains, and an empty query matches every page.", "quantifier": "every query and every text", "why_tests_cant": "Every combination of wildcard and escape characters.", "anchors": ["crates/gosub_engine/src/engine/places.rs: like_pattern", "crates/gosub_engine/src/engine/places.rs: query_visited"]}
{"id": "C78", "title": "The last navigation wins", "statement": "Whatever commands the user gives a tab and in whatever order the network answers: the worker never panics; the document shown is never replaced by that of a navigation started earlier; and once nothing is in flight, the tab shows the document and address of the last navigation started, or that it failed.", "quantifier": "every schedule of commands, task steps, answers, frames, scrolls and layouts, and every address parser", "why_tests_cant": "Any interleaving of user commands with any number of loads in flight.", "anchors": ["crates/gosub_engine/src/engine/tab/worker.rs: handle_tab_command", "crates/gosub_engine/src/engine/tab/worker.rs: navigate_to", "crates/gosub_engine/src/engine/tab/worker.rs: on_nav_result", "crates/gosub_engine/src/engine/tab/worker.rs: run"]}
{"id": "C79", "title": "A superseded navigation leaves no trace", "statement": "When the user goes elsewhere before a page has been shown, that page is not shown, not put into the session history and not recorded as visited.", "quantifier": "every schedule in which a navigation is superseded", "why_tests_cant": "Depends on when the response, the second command and the answer come relative to each other.", "anchors": ["crates/gosub_engine/src/engine/tab/worker.rs: cancel_current_nav", "crates/gosub_engine/src/engine/tab/worker.rs: navigate_to", "crates/gosub_engine/src/engine/tab/worker.rs: on_nav_result"]}
{"id": "C80", "title": "Loading state and navigation events", "statement": "Every navigation is announced once and reported as finished, failed or cancelled exactly once, truthfully; the tab is in the loading state exactly while a navigation is in flight.", "quantifier": "every schedule", "why_tests_cant": "Histories of overlapping navigations are unbounded.", "anchors": ["crates/gosub_engine/src/engine/tab/worker.rs: send_event", "crates/gosub_engine/src/engine/tab/worker.rs: on_nav_result", "crates/gosub_engine/src/engine/tab/worker.rs: navigate_to", "crates/gosub_engine/src/engine/tab/worker.rs: bind_storage"]}
{"id": "C81", "title": "Going back restores the scroll offset", "statement": "Leaving a page saves where it is scrolled; the saved offset is not changed while another page is shown; and when the page is shown again by going back, forward, to an entry or by reloading, it is scrolled there, as far as the page allows, once it is laid out.", "quantifier": "every schedule, every history, all offsets and page heights", "why_tests_cant": "The offset has to survive any number of steps between leaving and coming back.", "anchors": ["crates/gosub_engine/src/engine/tab/worker.rs: navigate_to", "crates/gosub_engine/src/engine/tab/worker.rs: reset_scroll_for_navigation", "crates/gosub_engine/src/engine/tab/worker.rs: on_nav_result", "crates/gosub_engine/src/engine/tab/worker.rs: apply_scroll", "crates/gosub_engine/src/engine/tab/history.rs: set_current_scroll"]}
{"id": "C82", "title": "Visits are recorded for the pages shown", "statement": "The pages recorded as visited are exactly the web pages reported as loaded, in that order, each under its own title.", "quantifier": "every schedule", "why_tests_cant": "Any number of navigations, overlapping, failing, superseded, inside the document.", "anchors": ["crates/gosub_engine/src/engine/tab/worker.rs: on_nav_result", "crates/gosub_engine/src/engine/tab/worker.rs: record_visit"]}
{"id": "C83", "title": "A scroll request ends exactly where it should", "statement": "After any number of scroll requests (wheel or keys) mixed with frames, once the animation's length has passed without a further request the tab is at rest exactly where the requests lead to: each moves on from where the previous one was heading, as far as the page allows. That is the offset the tab reports. Home leads to the top, End to the bottom, and page keys move on by no more than the window's height.", "quantifier": "every sequence of scroll requests and frames of any lengths, every easing curve and duration, every previous history of the tab", "why_tests_cant": "Frames come at irregular times and requests interrupt animations at any point; floating progress has to end on the target exactly.", "anchors": ["crates/gosub_engine/src/engine/tab/scroll.rs: scroll_by", "crates/gosub_engine/src/engine/tab/scroll.rs: tick", "crates/gosub_shared/src/animation.rs: Tween", "crates/gosub_engine/src/engine/tab/worker.rs: scroll_page_by", "crates/gosub_engine/src/engine/tab/worker.rs: tick_draw"]}
{"id": "C84", "title": "Scrolling moves straight to its destination and stays on the page", "statement": "Every frame of a scroll animation moves the offset towards the destination or leaves it; it neither turns back nor goes past. The page is never drawn at an offset outside its bounds.", "quantifier": "every history of a tab, every frame length, every rising easing curve", "why_tests_cant": "Overshoot depends on when a running animation is retargeted, and the bounds depend on every event between layout and drawing.", "anchors": ["crates/gosub_shared/src/animation.rs: Tween", "crates/gosub_engine/src/engine/tab/scroll.rs: tick", "crates/gosub_engine/src/engine/context.rs: set_scroll", "crates/gosub_engine/src/engine/tab/worker.rs: scroll_page_by"]}
{"id": "C85", "title": "The reported scroll offset is the one the page is drawn at", "statement": "The offset a tab reports and saves in its session history and the offset its page is drawn at differ by less than a pixel.", "quantifier": "every sequence of scroll requests, frames, jumps and navigations", "why_tests_cant": "The two offsets are kept in different places and updated by different code; they must not drift apart over any history.", "anchors": ["crates/gosub_engine/src/engine/tab/worker.rs: scroll_page_by", "crates/gosub_engine/src/engine/tab/worker.rs: apply_scroll", "crates/gosub_engine/src/engine/tab/worker.rs: reset_scroll_for_navigation", "crates/gosub_engine/src/engine/context.rs: set_scroll"]}
{"id": "C86", "title": "Easing curves are what they are called", "statement": "Every smooth curve is exactly 0 up to its start and exactly 1 from its end on; all but the elastic, custom and overshooting Bézier curves stay between 0 and 1; linear, smooth-step and stepped curves never fall; and a Bézier curve has, at every time, the height of a point of the curve whose time is less than a millionth away.", "quantifier": "every input, every Bézier curve with control times between 0 and 1, every number of steps", "why_tests_cant": "The Bézier solver is an iteration with a fallback; that it always ends close enough is a statement about all curves and times.", "anchors": ["crates/gosub_shared/src/animation.rs: Easing::eval", "crates/gosub_shared/src/animation.rs: cubic_bezier", "crates/gosub_shared/src/animation.rs: bounce", "crates/gosub_shared/src/animation.rs: steps"]}
{"id": "C87", "title": "Stepped curves are those of CSS", "statement": "A stepped easing has the output CSS Easing Functions defines for steps() with the same count and position keyword.", "quantifier": "every step count CSS allows, every position keyword, every progress between 0 and 1", "why_tests_cant": "The differences are at single instants, the boundaries of the steps, for every count.", "anchors": ["crates/gosub_shared/src/animation.rs: steps", "crates/gosub_shared/src/animation.rs: StepPosition"]}
{"id": "C88", "title": "A scroll spring comes to rest on its target", "statement": "With spring scrolling the tab comes to rest, after finitely many frames, exactly at its destination.", "quantifier": "every stiffness and damping, every sequence of frame lengths not arbitrarily short, every previous history", "why_tests_cant": "Convergence of an integration scheme with irregular steps is a limit statement.", "anchors": ["crates/gosub_shared/src/animation.rs: Spring", "crates/gosub_engine/src/engine/tab/scroll.rs: tick"]}
{"id": "C89", "title": "Tokenizing always ends", "statement": "Whatever document it is given, and whatever tokenizer states the parser switches to, the HTML tokenizer hands out finitely many tokens, the last of which, and only the last, is the end-of-file token; there is one such list.", "quantifier": "every input text, every initial content state, every behaviour of the parser between tokens", "why_tests_cant": "The tokenizer is a machine of 74 states many of which put characters back; a cycle without progress for one input would hang the engine.", "anchors": ["crates/gosub_html5/src/tokenizer.rs: next_token", "crates/gosub_html5/src/tokenizer.rs: consume_stream", "crates/gosub_html5/src/tokenizer.rs: emit_token"]}
{"id": "C90", "title": "Tokens are those of the HTML standard", "statement": "For every document the tokenizer hands out the tokens the tokenizer of the HTML standard (13.2.5) emits on the same document with the same parser.", "quantifier": "every document, every initial content state, every parser", "why_tests_cant": "Every one of the 74 states has to agree on every character; test suites sample documents.", "anchors": ["crates/gosub_html5/src/tokenizer.rs: consume_stream", "crates/gosub_html5/src/tokenizer.rs: add_stored_attributes_to_current_token", "crates/gosub_html5/src/tokenizer.rs: State", "crates/gosub_shared/src/byte_stream.rs: ByteStream"]}
{"id": "C91", "title": "Written tokens are read back", "statement": "A list of tags, texts, comments and DOCTYPEs written out as the HTML standard serialises them is tokenized back into the same list.", "quantifier": "every list of tokens with well-formed names, without adjacent texts; any text, any attribute values without NUL, any comment that does not hold its own end", "why_tests_cant": "Escaping and unescaping have to agree on every string, and every comment state on every comment.", "anchors": ["crates/gosub_html5/src/tokenizer.rs: consume_stream", "crates/gosub_html5/src/tokenizer/character_reference.rs: consume_character_reference"]}
{"id": "C92", "title": "Tokens are well-formed", "statement": "Tag names in tokens start with a letter; tag and attribute names are not empty and have no ASCII capitals, white space, '/', '>' or NUL; no tag has an attribute twice; text tokens are not empty and are never adjacent.", "quantifier": "every input text, every initial content state, every parser", "why_tests_cant": "The tree builder relies on it for every token of every document.", "anchors": ["crates/gosub_html5/src/tokenizer.rs: add_to_token_name", "crates/gosub_html5/src/tokenizer.rs: store_and_clear_current_attribute", "crates/gosub_html5/src/tokenizer.rs: emit_token"]}
{"id": "C93", "title": "Raw text ends at its own end tag only", "statement": "In an element whose content is raw text (style, script, title, ...) nothing but that element's end tag is taken as markup; its text comes out unchanged, NULs replaced; escaped text of RCDATA elements is read back.", "quantifier": "every element name, attributes and text without the element's end tag (without a character reference in RCDATA, without a comment start in a script)", "why_tests_cant": "Any string at all may come in a script; a missed end-tag look-alike is a script injection.", "anchors": ["crates/gosub_html5/src/tokenizer.rs: RCDATAEndTagName", "crates/gosub_html5/src/tokenizer.rs: RAWTEXTEndTagName", "crates/gosub_html5/src/tokenizer.rs: ScriptDataEndTagName", "crates/gosub_html5/src/tokenizer.rs: is_appropriate_end_token"]}
{"id": "C94", "title": "CSS tokenizing reads on and ends", "statement": "Every call for a CSS token ends; unless it reports the end of the text it has read at least one character; every text has exactly one, finite list of tokens.", "quantifier": "every text, whatever the Unicode tables say", "why_tests_cant": "A single text on which the tokenizer stands still hangs the engine; texts cannot be enumerated.", "anchors": ["crates/gosub_css3/src/tokenizer.rs: consume_token", "crates/gosub_css3/src/tokenizer.rs: consume_ident", "crates/gosub_css3/src/tokenizer.rs: consume_string_token", "crates/gosub_css3/src/tokenizer.rs: consume_url", "crates/gosub_css3/src/tokenizer.rs: consume_remnants_of_bad_url"]}
{"id": "C95", "title": "CSS tokens follow CSS Syntax Level 3", "statement": "The tokens of a text are those that section 4 of CSS Syntax Module Level 3 gives, from preprocessing to the EOF token.", "quantifier": "every text", "why_tests_cant": "The standard defines the tokens of every character sequence; tests compare a few.", "anchors": ["crates/gosub_css3/src/tokenizer.rs: consume_token", "crates/gosub_css3/src/tokenizer.rs: consume_numeric_token", "crates/gosub_css3/src/tokenizer.rs: consume_number", "crates/gosub_css3/src/tokenizer.rs: consume_ident_like_seq", "crates/gosub_css3/src/tokenizer.rs: consume_url", "crates/gosub_css3/src/tokenizer.rs: consume_escaped_token", "crates/gosub_css3/src/tokenizer.rs: consume_comment"]}
{"id": "C96", "title": "Written CSS strings, hashes and at-keywords are read back", "statement": "A string, a # with a name, and an at-keyword written out as the CSSOM serialises them are tokenized back to the same value, whatever they hold and whatever follows.", "quantifier": "every string and every non-empty name, every following text (for names: one that does not go on with the name)", "why_tests_cant": "Escaping and unescaping have to agree on every string and on every following character.", "anchors": ["crates/gosub_css3/src/tokenizer.rs: consume_string_token", "crates/gosub_css3/src/tokenizer.rs: consume_escaped_token", "crates/gosub_css3/src/tokenizer.rs: consume_ident"]}
{"id": "C97", "title": "Written CSS identifiers are read back", "statement": "An identifier written out as the CSSOM serialises it is tokenized back as that identifier.", "quantifier": "every non-empty identifier, every following text that does not go on with it", "why_tests_cant": "As C96: every first character takes another way through the tokenizer.", "anchors": ["crates/gosub_css3/src/tokenizer.rs: consume_token", "crates/gosub_css3/src/tokenizer.rs: consume_ident_like_seq", "crates/gosub_css3/src/tokenizer.rs: starts_unicode_range", "crates/gosub_css3/src/tokenizer.rs: is_signed_decimal"]}
{"id": "C98", "title": "The CSS token buffer is one list", "statement": "Whatever sequence of consume, lookahead, lookahead past white space, reconsume and current the parser makes, the answers are those of one fixed list of tokens with a position in it; no request panics or hangs.", "quantifier": "every text and every history of requests", "why_tests_cant": "The histories of requests are unbounded, and the buffer is filled at different moments in each.", "anchors": ["crates/gosub_css3/src/tokenizer.rs: consume", "crates/gosub_css3/src/tokenizer.rs: lookahead", "crates/gosub_css3/src/tokenizer.rs: lookahead_sc", "crates/gosub_css3/src/tokenizer.rs: reconsume", "crates/gosub_css3/src/tokenizer.rs: current"]}
{"id": "C99", "title": "A declaration that is accepted is one the property's grammar allows", "statement": "If the value of a declaration matches the grammar of its property, then the value is in the language that the CSS value definition syntax gives to that grammar (juxtaposition, &&, ||, |, brackets, ?, *, +, {a,b}, #, !, commas that go with what is left out), or it is one that every property allows: a CSS-wide keyword or a vendor-prefixed keyword alone, or anything that contains var() or env().", "quantifier": "every grammar, every value (any list of components, functions nested to any depth), every table of colour names", "why_tests_cant": "Grammars nest combinators and multipliers without bound, and a greedy matcher can go wrong only for particular combinations.", "anchors": ["crates/gosub_css3/src/matcher/syntax_matcher.rs: CssSyntaxTree::matches", "crates/gosub_css3/src/matcher/syntax_matcher.rs: match_component", "crates/gosub_css3/src/matcher/syntax_matcher.rs: match_component_group", "crates/gosub_css3/src/matcher/syntax_matcher.rs: is_css_wide_keyword"]}
{"id": "C100", "title": "A declaration that the property's grammar allows is accepted", "statement": "Every value in the language of a property's grammar matches it, whatever the order in which any-order parts are written and whatever optional parts are left out; and so does every value that is allowed for all properties.", "quantifier": "every grammar, every value in its language", "why_tests_cant": "The matcher does not backtrack: whether it finds the right way depends on the grammar and the value together.", "anchors": ["crates/gosub_css3/src/matcher/syntax_matcher.rs: match_component", "crates/gosub_css3/src/matcher/syntax_matcher.rs: match_group_juxtaposition", "crates/gosub_css3/src/matcher/syntax_matcher.rs: match_group_at_least_one_any_order", "crates/gosub_css3/src/matcher/syntax_matcher.rs: match_group_all_any_order"]}
{"id": "C101", "title": "Checking a declaration always ends with yes or no", "statement": "Matching a value against the grammar of a property ends and says yes or no: it neither loops nor panics, whatever the value is.", "quantifier": "every grammar, every value of any length and depth", "why_tests_cant": "Termination for all values and grammars; the loops depend on how much each round consumes.", "anchors": ["crates/gosub_css3/src/matcher/syntax_matcher.rs: CssSyntaxTree::matches", "crates/gosub_css3/src/matcher/syntax_matcher.rs: match_component_inner", "crates/gosub_css3/src/matcher/syntax_matcher.rs: match_component_single"]}
{"id": "C102", "title": "Keywords and numeric types accept what CSS Values says", "statement": "A keyword in a grammar accepts that word in any case and nothing else. <number>, <integer>, <percentage>, <length>, <angle>, <time> and <flex>, with a range or without, accept exactly the values of that type in the range: lengths with any standard unit in any case or a bare 0, other dimensions only with a unit. (Math functions apart.)", "quantifier": "every keyword, every numeric type, every range, every value", "why_tests_cant": "Numbers, units and ranges are unbounded.", "anchors": ["crates/gosub_css3/src/matcher/syntax_matcher.rs: match_component_single", "crates/gosub_css3/src/matcher/syntax_matcher.rs: LENGTH_UNITS", "crates/gosub_css3/src/matcher/syntax.rs: RangeType::contains"]}
{"id": "C103", "title": "Parsing HTML always ends", "statement": "Parsing a document or a fragment never panics and never loops: whatever the text, every token is processed, the input is read to its end, and parsing returns.", "quantifier": "every input text, every sequence of tokens, every context node of a fragment, every option", "why_tests_cant": "Tokens go back and forth between 23 insertion modes, foreign content and the queue; that no combination loops or indexes an empty stack is a claim about all token sequences.", "anchors": ["crates/gosub_html5/src/parser.rs: Html5Parser::parse_document", "crates/gosub_html5/src/parser.rs: Html5Parser::parse_fragment", "crates/gosub_html5/src/parser.rs: Html5Parser::do_parse", "crates/gosub_html5/src/parser.rs: Html5Parser::process_html_content", "crates/gosub_html5/src/parser.rs: Html5Parser::process_foreign_content"]}
{"id": "C104", "title": "Parsing always leaves a proper tree", "statement": "At every moment of parsing, and at its end, the document is a tree: no node is below itself, a node lists a child exactly once and only if the child names it as its parent, nothing listed or named is missing, and walking from the root meets no node twice. Parsing a fragment into a document keeps every node the document had.", "quantifier": "every input, every moment of parsing, every document a fragment is parsed into", "why_tests_cant": "Foster parenting, the adoption agency and framesets move nodes about; a broken link shows only for particular nestings of wrong markup.", "anchors": ["crates/gosub_html5/src/parser.rs: Html5Parser::do_parse", "crates/gosub_html5/src/parser.rs: Html5Parser::run_adoption_agency", "crates/gosub_html5/src/parser.rs: Html5Parser::insert_element", "crates/gosub_html5/src/parser.rs: Html5Parser::insert_text_element", "crates/gosub_html5/src/document/document_impl.rs: DocumentImpl"]}
{"id": "C105", "title": "Cutting text into parts loses nothing", "statement": "Where text is cut up before it is processed, the parts put together are the text, none is empty, each has characters of one kind (white space, NUL, the rest; or NUL and the rest), and neighbours are of different kinds.", "quantifier": "every text", "why_tests_cant": "Texts are unbounded.", "anchors": ["crates/gosub_html5/src/parser.rs: Html5Parser::split_mixed_token", "crates/gosub_html5/src/parser.rs: Html5Parser::split_mixed_token_null", "crates/gosub_html5/src/parser.rs: Html5Parser::split_token_by_group"]}
{"id": "C106", "title": "A well-formed page is parsed to the tree it was written from", "statement": "Take a page as a tree (an optional DOCTYPE, an html element with a head and a body, HTML elements with attributes, texts and comments), in which every element is where the standard allows it (no p closed by a block inside it, no heading directly in a heading, li in a list, dd and dt in a dl, no a in an a, table parts in tables, void and text-only elements without element content, no two texts next to each other; templates, framesets, foreign content, select, ruby, pre, textarea, noscript and nobr left out). Feeding the parser the start tags, texts, comments and end tags of that page in order ends with a document that is exactly that page: same elements, names, attributes, texts, comments, parents and order.", "quantifier": "all pages of that kind, of any size and depth, all attributes and texts", "why_tests_cant": "a test checks some pages; that nothing is moved, merged, doubled, lost or closed early for any nesting of any of these elements is a statement about all trees", "anchors": ["crates/gosub_html5/src/parser.rs: process_html_content, handle_in_body, handle_in_head, handle_in_table, run_adoption_agency, active_formatting_elements_push, reset_insertion_mode", "crates/gosub_html5/src/parser/helper.rs: insert_text_helper, insert_element_helper"]}
{"id": "C107", "title": "A well-formed page as text is parsed to the tree it was written from", "statement": "Take a page of the kind of C106 and write it as text: start tags with quoted attribute values, text with &, <, > and quotes escaped, the text of script, style, title and the like as their kind requires, comments, end tags except for elements that have none, a DOCTYPE if there is one. If tokenizer and tree builder run together, the tokenizer doing what the tree builder asks of it after each start tag, the result is exactly that page.", "quantifier": "all pages of that kind with names, attributes and comments that can be written, all tokenizer and tree builder parameters", "why_tests_cant": "a test parses some pages; that escaping, raw text, the switch of the tokenizer's state and tree building fit together for every page is a statement about all trees and all texts", "anchors": ["crates/gosub_html5/src/parser.rs: do_parse, parse_raw_data, handle_in_body", "crates/gosub_html5/src/tokenizer.rs: next_token, consume_stream"]}
{"id": "C108", "title": "A document written out and parsed again is the same document", "statement": "If a document is a well-formed page, then writing it with the engine's document writer and parsing the text gives the same page (attributes possibly in another order), whatever order the writer visits a hash map of attributes in.", "quantifier": "all pages of the kind of C106, all orders of attributes", "why_tests_cant": "tests compare the written text of a few pages; that writing and parsing are inverse on every page, or which pages are lost, is a statement about all trees", "anchors": ["crates/gosub_html5/src/writer.rs: DocumentWriter::write_from_node, write_node", "crates/gosub_html5/src/parser.rs: do_parse"]}
{"id": "C109", "title": "Parsing a stylesheet always ends", "statement": "Whatever text is given as a stylesheet, parsing it ends, with a stylesheet or an error. It needs no more levels of stack than there are tokens, and two; and when the stack suffices, more of it does not change the result.", "quantifier": "all lists of tokens, all parser settings, all amounts of stack", "why_tests_cant": "a loop that makes no progress shows only on the token that stalls it; tests run some stylesheets, and malformed ones are without number", "anchors": ["crates/gosub_css3/src/lib.rs: Css3::parse, Css3::recurse", "crates/gosub_css3/src/parser/stylesheet.rs: parse_stylesheet_internal", "crates/gosub_css3/src/parser/block.rs: parse_block", "crates/gosub_css3/src/parser/selector.rs: parse_selector"]}
{"id": "C110", "title": "No stylesheet makes the parser run out of stack", "statement": "The parser goes down at most a fixed number of levels, the same for every stylesheet, so that no text, however long or deeply nested, overflows the stack.", "quantifier": "all lists of tokens, all parser settings", "why_tests_cant": "a test nests a few constructs a few hundred times; that every cycle of functions in the parser is counted by the limit is a statement about all inputs", "anchors": ["crates/gosub_css3/src/lib.rs: MAX_RECURSION_DEPTH, Css3::recurse", "crates/gosub_css3/src/parser/at_rule/media.rs: parse_media_query_list, parse_media_query", "crates/gosub_css3/src/parser/condition.rs: parse_condition"]}
{"id": "C111", "title": "A well-formed stylesheet is read to the rules it was written from", "statement": "A stylesheet written as rules with type, universal, class, id, attribute and pseudo selectors, combinators, commas, and declarations whose values are words, numbers, lengths, percentages, colours, strings, URLs and nested functions, with white space or without where it is optional, is parsed to exactly these rules: the same selectors in the same order, the same declarations in the same order, with the same values and the same importance.", "quantifier": "all written stylesheets of that kind, all choices of optional white space, all settings", "why_tests_cant": "a test parses some stylesheets; that nothing is lost, merged or reordered in any of them is a statement about all", "anchors": ["crates/gosub_css3/src/lib.rs: Css3::parse_str", "crates/gosub_css3/src/ast.rs: convert_ast_to_stylesheet, collect_rule", "crates/gosub_css3/src/parser/rule.rs: parse_rule", "crates/gosub_css3/src/parser/declaration.rs: parse_declaration", "crates/gosub_css3/src/parser/selector.rs: parse_selector"]}
{"id": "C112", "title": "A mistake in a stylesheet costs only the declaration or rule it is in", "statement": "With errors ignored, a declaration or rule that cannot be read is left out, and everything before and after it is read as if it were not there. With errors not ignored, the stylesheet is refused.", "quantifier": "all stylesheets with mistakes among well-formed rules and declarations", "why_tests_cant": "recovery has to find the end of what is wrong whatever tokens it consists of; tests try a few mistakes at a few places", "anchors": ["crates/gosub_css3/src/parser/rule.rs: parse_rule", "crates/gosub_css3/src/parser/declaration.rs: parse_declaration, parse_until_declaration_end", "crates/gosub_css3/src/parser/block.rs: parse_block, parse_until_rule_end"]}
{"id": "C113", "title": "With errors ignored, parsing a stylesheet is never an error", "statement": "With the setting that ignores errors, every text is parsed to a stylesheet, at worst an empty one.", "quantifier": "all lists of tokens, all amounts of stack that suffice", "why_tests_cant": "one token in one place that is not covered makes the whole stylesheet an error; tests cannot try all", "anchors": ["crates/gosub_css3/src/lib.rs: Css3::parse", "crates/gosub_css3/src/ast.rs: collect_rule", "crates/gosub_css3/src/parser/rule.rs: parse_rule", "crates/gosub_css3/src/parser/at_rule.rs: parse_at_rule"]}
{"id": "C114", "title": "White space that means nothing changes nothing", "statement": "Two stylesheets that differ only in white space where it has no meaning (around commas, combinator signs, braces, colons, semicolons) are parsed to the same rules; white space between two compound selectors is a descendant combinator.", "quantifier": "all pairs of such stylesheets", "why_tests_cant": "there are as many ways to put white space as there are subsets of the places; tests try the usual ones", "anchors": ["crates/gosub_css3/src/parser/selector.rs: parse_selector", "crates/gosub_css3/src/parser/selector_list.rs: parse_selector_list", "crates/gosub_css3/src/parser/declaration.rs: parse_declaration"]}
{"id": "C115", "title": "The text of a stylesheet is read as the rules it stands for", "statement": "For every stylesheet of style rules, the text that spells it (names and strings escaped as the CSSOM prescribes, numbers, units, functions, urls and punctuation, with white space only where the author put it) is tokenized and parsed to exactly the rules, selectors, declarations and values the author meant, in order; mistakes in declarations and rules cost only themselves.", "quantifier": "all stylesheets whose tokens can be told apart when written side by side, and all Unicode tables of the tokenizer", "why_tests_cant": "the text of a stylesheet has unbounded length and its names and strings unbounded alphabets; each pair of neighbouring tokens is a chance to be read as something else", "anchors": ["crates/gosub_css3/src/tokenizer.rs: consume_token, consume_numeric_token, consume_ident_like_seq, consume_url", "crates/gosub_css3/src/lib.rs: Css3::parse_str", "crates/gosub_css3/src/ast.rs: convert_ast_to_stylesheet"]}
{"id": "C116", "title": "Never more zones than the engine allows", "statement": "Whatever is called and however it is answered, at most max_zones zones are open at once; a zone is refused for the limit exactly when so many are open, and otherwise given if the engine was started; closing a zone gives its place back.", "quantifier": "all limits and all histories of start, run, subscribe, create, close and shutdown calls with all their answers", "why_tests_cant": "the count depends on every earlier success, failure and close; a test follows one history", "anchors": ["crates/gosub_engine/src/engine/engine.rs: create_zone, close_zone, start, shutdown"]}
{"id": "C117", "title": "The tabs of a zone", "statement": "list_tabs lists exactly the tabs that were given out and not closed, each once and never more than the zone allows; a tab is refused for the limit exactly when the setting or the zone allows no more at that moment; close_tab answers whether there was such a tab, and afterwards there is none.", "quantifier": "all histories of creating, closing and ending tabs and of changes of the setting", "why_tests_cant": "limits change at run time and tabs end by themselves; a test cannot try every interleaving", "anchors": ["crates/gosub_engine/src/engine/zone/zone.rs: create_tab, close_tab, list_tabs, effective_max_tabs"]}
{"id": "C118", "title": "Starting and shutting down", "statement": "An engine can be started once and shut down once; shutting it down before it was started fails and does nothing; a shutdown saves the cookies of every open zone before it stops the I/O thread, and returns when the run loop is polled; closing a zone closes its tabs, stops its fetcher, saves its cookies and reports it, in this order.", "quantifier": "all histories of calls, whether or not the run loop is polled, and whether or not somebody receives events", "why_tests_cant": "what a shutdown must save depends on the whole history; the order of effects must hold on every one", "anchors": ["crates/gosub_engine/src/engine/engine.rs: start, run, shutdown, flush_persistence, close_zone", "crates/gosub_engine/src/engine/zone/zone.rs: close"]}
{"id": "C119", "title": "Which tabs share cookies and storage", "statement": "Two tabs use the same cookie jar exactly when their cookies come from the same place: the jar chosen for the tab, else that of the zone, else the one the zone's store keeps for that zone until it is released, else one of the tab's own. The same holds for storage services. A tab sends the languages it was given, else those of its zone.", "quantifier": "all histories of making tabs in all zones with all services and overrides, and of releasing zones, and any pair of tabs", "why_tests_cant": "sharing is a statement about pairs of tabs with any history between them", "anchors": ["crates/gosub_engine/src/engine/tab/services.rs: resolve_tab_services", "crates/gosub_engine/src/engine/cookies/store.rs: jar_for, release_zone"]}
{"id": "C120", "title": "Every request is fetched by its own zone or dropped", "statement": "Every request sent to the I/O thread is disposed of exactly once and in order: submitted to a fetcher of its own zone that was started and not stopped, or dropped. At no moment do two fetchers run for one zone; when the shutdown of a zone is acknowledged none runs for it; when the thread has ended none runs at all.", "quantifier": "all sequences of commands, all moments at which the thread is told to end, and all fetchers that cannot be built", "why_tests_cant": "the moment of the end falls between any two commands, and the queue behind it has any length", "anchors": ["crates/gosub_engine/src/net/io_runtime.rs: spawn_io_thread, IoRouter::get_or_spawn_zone_fetcher, shutdown_zone, shutdown_all"]}
{"id": "C121", "title": "Which pages share local and session storage", "statement": "Two tabs see the same local storage exactly when they have the same storage service, zone, origin and partition; tabs of different zones, services or origins never do; no two tabs share session storage. A tab that was given a partition key uses the partition of that key.", "quantifier": "all histories of making tabs, and any two of them on pages of any two origins", "why_tests_cant": "isolation is a statement about every pair of tabs and origins", "anchors": ["crates/gosub_engine/src/engine/tab/services.rs: resolve_tab_services", "crates/gosub_engine/src/engine/tab/worker.rs: prepare_storage_for", "crates/gosub_engine/src/engine/storage/types.rs: compute_partition_key"]}
{"id": "C122", "title": "The embedder is told of every change in storage", "statement": "For each zone the embedder is told of the changes in its storage in order, each once, none left out and none under another zone's name.", "quantifier": "all histories of zones, changes and turns of the forwarding tasks", "why_tests_cant": "the turns of the tasks and the bursts of changes interleave in unboundedly many ways", "anchors": ["crates/gosub_engine/src/engine/zone/zone.rs: spawn_storage_events_to_engine", "crates/gosub_engine/src/engine/storage/service.rs: StorageBus::publish"]}
{"id": "C123", "title": "Computed styles", "statement": "For every node and property the value that layout and painting are given is the computed value of CSS: the declaration that wins at the node, else the value of the parent for an inherited property, else the initial value; em and rem are turned into px against the right font sizes, and a border without a style has no width.", "quantifier": "all nodes with all lists of ancestors, all declarations on them, and all properties", "why_tests_cant": "a value depends on every ancestor at any depth; a test has one small tree", "anchors": ["crates/gosub_render_pipeline/src/common/document/pipeline_doc.rs: get_style, font_size_px, get_own_style, border_width_peer_style", "crates/gosub_render_pipeline/src/common/document/style.rs: StyleProperty::id, PROPERTIES"]}
{"id": "C124", "title": "The style attribute", "statement": "The style attribute of an element is read as CSS says: its declarations are found whatever blanks and empty declarations are between them, each gives its properties their values, and the last one for a property wins; no text of an attribute makes the engine panic.", "quantifier": "all texts of attributes, and all lists of declarations with any blanks", "why_tests_cant": "the text comes from the page and can be anything of any length; tests have a few texts", "anchors": ["crates/gosub_render_pipeline/src/common/document/inline_style.rs: parse_inline_style_attr, apply_style_kv, parse_style_value, parse_named_color, parse_hex_color, parse_box_shorthand", "crates/gosub_render_pipeline/src/common/document/style.rs: NodeStyle::set, NodeStyle::get_own"]}
{"id": "C125", "title": "Generated content", "statement": "The content that ::before and ::after generate is part of the page: before or after the children of its element, with the element as its parent, its text in it, and never mistaken for another node.", "quantifier": "all documents with any content generated for any of their elements, and all pairs of nodes", "why_tests_cant": "ids of generated nodes share a number space with those of the document; tests look at a few ids", "anchors": ["crates/gosub_render_pipeline/src/common/document/pipeline_doc.rs: encode_pseudo, decode_pseudo, GosubDocumentAdapter::children, GosubDocumentAdapter::parent, GosubDocumentAdapter::get_node_by_id"]}
{"id": "C126", "title": "The render tree", "statement": "The tree that is laid out and painted has exactly the nodes of the page that are shown, with generated content, in document order; a hidden element takes everything below it with it; building the tree always ends.", "quantifier": "all documents whose tree is finite, with any display values", "why_tests_cant": "documents of every shape and depth; tests have a few small ones", "anchors": ["crates/gosub_render_pipeline/src/rendertree_builder/tree.rs: RenderTree::parse, RenderTree::build_rendertree, is_visible"]}
{"id": "C127", "title": "Links and the cursor under the pointer", "statement": "After every move of the pointer the engine reports the address of the link that the pointer is on, whatever happened before, and reports a change of it exactly when it changes; the cursor is a hand on links and an I-beam on text and in text inputs; a click opens the link that is clicked.", "quantifier": "all documents and all histories of moves, repaints and rebuilds", "why_tests_cant": "the report depends on the history of moves; tests have histories of one or two moves", "anchors": ["crates/gosub_engine/src/engine/context.rs: update_hover, hit_test, is_text_input", "crates/gosub_engine/src/engine/tab/worker.rs: TabCommand::MouseMove, TabCommand::MouseDown"]}
{"id": "C128", "title": "Styles for hover", "statement": "What is painted has the styles for the present place of the pointer: rules with :hover apply to exactly the node under the pointer and those above it, after every history of moves and repaints.", "quantifier": "all documents, layouts, tiles and histories of moves and repaints", "why_tests_cant": "a style that stays behind depends on the order of moves and repaints", "anchors": ["crates/gosub_engine/src/engine/context.rs: update_hover, rebuild_render_list_if_needed, pipeline_hover_repaint", "crates/gosub_render_pipeline/src/common/document/pipeline_doc.rs: invalidate_style_for_nodes", "crates/gosub_html5/src/document/document_impl.rs: set_hovered_nodes"]}
{"id": "C129", "title": "Focus", "statement": "The Tab key leads to all elements that can be focused in document order, round again after the last, and Shift+Tab back; a click focuses the nearest such element at or above the point, or takes the focus away.", "quantifier": "all documents and any number of presses from any focus", "why_tests_cant": "orders of any length and documents of any shape", "anchors": ["crates/gosub_engine/src/engine/context.rs: focus_step, focusable_elements, focus_at, is_focusable"]}
{"id": "C130", "title": "Internal pages show their data as text", "statement": "The engine's own pages (history, settings, version, unknown address) show titles, addresses, keys and values as text: whatever these are, the page is read as a fixed frame of tags with them as texts in it, and none of them brings markup into the page.", "quantifier": "all histories, settings and addresses, of any length and with any characters", "why_tests_cant": "a page title comes from the web and can be any text; tests try one or two", "anchors": ["crates/gosub_engine/src/engine/internal_pages.rs: builtins::escape", "crates/gosub_engine/src/engine/internal_pages.rs: builtins::page", "crates/gosub_engine/src/engine/internal_pages.rs: builtins::history", "crates/gosub_engine/src/engine/internal_pages.rs: builtins::config", "crates/gosub_engine/src/engine/internal_pages.rs: builtins::version", "crates/gosub_engine/src/engine/internal_pages.rs: builtins::not_found"]}
{"id": "C131", "title": "Which internal page is shown", "statement": "After any history of registering and unregistering, an internal address shows the page that was last registered for its name, if it answers; else the engine's own page; else the page for unknown addresses. The list of pages has each name exactly once.", "quantifier": "all sequences of registrations and all addresses", "why_tests_cant": "the answer depends on the whole history of registrations", "anchors": ["crates/gosub_engine/src/engine/internal_pages.rs: InternalPages::register", "crates/gosub_engine/src/engine/internal_pages.rs: InternalPages::unregister", "crates/gosub_engine/src/engine/internal_pages.rs: InternalPages::names", "crates/gosub_engine/src/engine/internal_pages.rs: InternalPages::page_name", "crates/gosub_engine/src/engine/internal_pages.rs: InternalPages::resolve"]}
{"id": "C132", "title": "Tiles show every element where it is", "statement": "Every point of an element that is on the page is on exactly one tile of its layer, and that tile draws it where it belongs; a tile holds exactly the elements of its layer that meet it, in the order in which they are painted, and no part reaches out of its tile or element.", "quantifier": "all pages, layers, boxes with any coordinates, and sizes of tiles", "why_tests_cant": "an element can lie across tiles in any way; tests have a few boxes", "anchors": ["crates/gosub_render_pipeline/src/tiler.rs: TileList::generate", "crates/gosub_render_pipeline/src/tiler.rs: TileLayer::intersects_with", "crates/gosub_render_pipeline/src/tiler.rs: TileList::get_tiles_for_element", "crates/gosub_render_pipeline/src/layouter/box_model.rs: BoxModel::new"]}
{"id": "C133", "title": "The canvas of the page", "statement": "The first layer has exactly one tile for every point of the page, also where nothing is painted; all tiles have the background of html as their ground, or that of body if html has none; no two tiles have the same id.", "quantifier": "all pages, layers and sizes of tiles", "why_tests_cant": "a gap depends on the size of the page and the tiles", "anchors": ["crates/gosub_render_pipeline/src/tiler.rs: TileList::generate", "crates/gosub_render_pipeline/src/tiler.rs: get_background_color_from_node", "crates/gosub_render_pipeline/src/tiler.rs: TileList::next_node_id"]}
{"id": "C134", "title": "The console shows messages, counts and groups", "statement": "After any history of calls, a message with data writes one line: a mark for each open group, the level and the data with spaces between; count shows how often the label was counted since its last reset; countReset complains exactly for a label that was never counted; the end of a group gives back the label of the group that belongs to it and an end without a group does nothing.", "quantifier": "all histories of calls, labels and data", "why_tests_cant": "nesting and counting depend on the whole history", "anchors": ["crates/gosub_jsapi/src/console.rs: Console::count", "crates/gosub_jsapi/src/console.rs: Console::count_reset", "crates/gosub_jsapi/src/console.rs: Console::group", "crates/gosub_jsapi/src/console.rs: Console::group_end", "crates/gosub_jsapi/src/console.rs: Console::logger", "crates/gosub_jsapi/src/console/writable_printer.rs: WritablePrinter::print", "crates/gosub_jsapi/src/console/formatter.rs: Formatter::format"]}
{"id": "C135", "title": "The timers of the console", "statement": "timeEnd shows the time since the timer was started, and a timer that was never started gives a warning; a timer that was ended can be started again.", "quantifier": "all histories of calls, labels and readings of the clock", "why_tests_cant": "the clock and the order of the calls are arbitrary", "anchors": ["crates/gosub_jsapi/src/console.rs: Console::time", "crates/gosub_jsapi/src/console.rs: Console::time_log", "crates/gosub_jsapi/src/console.rs: Console::time_end"]}
{"id": "C136", "title": "Images are fetched once", "statement": "However requests for images and their fetches are interleaved, a source is fetched at most once, also if the fetch fails; all requests that are answered with an id have the same id, under which is the picture from this source, or the placeholder if the fetch has failed; different sources have different ids, except for the placeholder.", "quantifier": "all sources, all results of fetches, all schedules of any number of threads", "why_tests_cant": "a race between two requests needs a schedule that a test does not choose", "anchors": ["crates/gosub_render_pipeline/src/common/media/media_store.rs: MediaStore::request_media", "crates/gosub_render_pipeline/src/common/media/media_store.rs: MediaStore::load_media", "crates/gosub_render_pipeline/src/common/media/media_store.rs: MediaStore::load_media_from_source", "crates/gosub_render_pipeline/src/common/media/media_store.rs: MediaStore::load_media_from_data", "crates/gosub_render_pipeline/src/common/media/media_store.rs: MediaStore::svg_raster_tile"]}
{"id": "C137", "title": "The page hears of every image that arrives", "statement": "A request that finds nothing is followed by news: once no thread is at work for the source, the engine has seen, or will see when it asks, that a fetch has landed, and at that time the source is there; from then on requests for it are answered with an id at once.", "quantifier": "all sources, results and schedules of any number of threads", "why_tests_cant": "a lost signal needs a schedule that a test does not choose", "anchors": ["crates/gosub_render_pipeline/src/common/media/media_store.rs: MediaStore::request_media", "crates/gosub_render_pipeline/src/common/media/media_store.rs: MediaStore::take_completed", "crates/gosub_engine/src/engine/context.rs: poll_media_completed"]}
{"id": "C138", "title": "Queries find exactly the nodes that meet their conditions", "statement": "After any history of changes to a document, a query for all ends and answers with exactly the nodes of the document that meet every condition (tag, id, class, attribute, a child with a tag, a parent with a tag), in document order; a query for the first answers with the first of these, or with none; a query that does not say which is an error.", "quantifier": "all histories of operations on a document, all lists of conditions", "why_tests_cant": "trees and combinations of conditions are unbounded", "anchors": ["crates/gosub_html5/src/document/query.rs: DocumentQuery::query", "crates/gosub_html5/src/document/query.rs: DocumentQuery::contains_child_tag", "crates/gosub_html5/src/document/query.rs: DocumentQuery::matches_query_condition", "crates/gosub_html5/src/parser/query.rs: Query", "crates/gosub_html5/src/document/document_impl.rs: TreeIterator"]}
{"id": "C139", "title": "The doctype chooses the mode of the HTML standard", "statement": "For every doctype (name, public identifier, system identifier, force-quirks flag) the document is set to quirks, limited-quirks or no-quirks mode exactly as the HTML standard says, where identifiers are compared up to the case of ASCII letters.", "quantifier": "all names and identifiers, present or missing, in any spelling", "why_tests_cant": "identifiers are unbounded texts, and the rules overlap, so that their order matters", "anchors": ["crates/gosub_html5/src/parser/quirks.rs: identify_quirks_mode", "crates/gosub_html5/src/parser.rs: Html5Parser::set_quirks_mode"]}
{"id": "C140", "title": "Timing statistics describe what was measured", "statement": "After any history of starting and stopping timers and clearing the table, the statistics list each namespace in which a timer was started since the last clearing, once; its figures describe exactly its timers that were stopped, each once with the time from its start to its last stop: count, total, least, greatest, average, and for each percentile a measured duration with at most that part of the durations below it and at least that part not above it; the figures are in order.", "quantifier": "all histories of calls with any times", "why_tests_cant": "histories, numbers of timers and durations are unbounded", "anchors": ["crates/gosub_shared/src/timing.rs: TimingTable::start_timer", "crates/gosub_shared/src/timing.rs: TimingTable::stop_timer", "crates/gosub_shared/src/timing.rs: TimingTable::get_stats", "crates/gosub_shared/src/timing.rs: TimingTable::namespace_stats", "crates/gosub_shared/src/timing.rs: TimingTable::clear", "crates/gosub_shared/src/timing.rs: percentage_to_index"]}
{"id": "C141", "title": "Input events reach their listeners", "statement": "However messages, wishes for listeners and the turns of the event loop are interleaved, the loop handles accepted messages in the order of sending and listeners in the order of their wishes, each once; each event calls, once and with what it carries, exactly the callbacks of the listeners for this kind of event added before, in the order of adding. After a request to close (or when all senders are gone) nothing more is accepted, what was accepted is still handled, and then the loop ends.", "quantifier": "all schedules of senders and of the loop, of any length", "why_tests_cant": "which channel the loop turns to is chosen at random, and histories are unbounded", "anchors": ["crates/gosub_web_platform/src/lib.rs: WebEventLoop::run", "crates/gosub_web_platform/src/lib.rs: WebEventLoop::handle_message", "crates/gosub_web_platform/src/lib.rs: WebEventLoop::handle_local_message", "crates/gosub_web_platform/src/event_listeners.rs: EventListeners::add_listener", "crates/gosub_web_platform/src/event_listeners.rs: EventListeners::handle_input_event", "crates/gosub_web_platform/src/event_listeners.rs: EventListener::handle_event"]}
{"id": "C142", "title": "Gradients have their colours where CSS asks for them", "statement": "The colour stops of a linear gradient keep their order and colours and are at the positions that the fixup of CSS gives; along its line the gradient has the colour of the first stop before it, of the last stop after it, and between two stops the mix (of premultiplied colours) in proportion to the distances.", "quantifier": "all lists of colour stops with and without positions, and all points of the line", "why_tests_cant": "lists of stops are unbounded and positions are numbers; the mistakes are in the interplay of missing, decreasing and outside positions", "anchors": ["crates/gosub_render_pipeline/src/common/document/pipeline_doc.rs: parse_linear_gradient", "crates/gosub_render_pipeline/src/painter/commands/gradient.rs: LinearGradient::color_at"]}
{"id": "C143", "title": "min(), max() and clamp() compare lengths", "statement": "min() of lengths is the smallest and max() the largest of them, as lengths, whatever their units are; clamp() is its second argument, not above the third, and above all not below the first. With an argument that cannot be compared the function is left as it is.", "quantifier": "all lists of lengths in all units, all sizes of the viewport and of fonts", "why_tests_cant": "arguments are unbounded in number and their sizes depend on the viewport", "anchors": ["crates/gosub_css3/src/functions/math.rs: resolve_math", "crates/gosub_css3/src/functions/math.rs: operand_px", "crates/gosub_css3/src/stylesheet.rs: CssValue::unit_to_px"]}
{"id": "C144", "title": "Gradients go in their direction and cover the box", "statement": "In every direction the points of the box are between the beginning and the end of the gradient, which are reached in opposite corners; the position of a point depends only on its way in the direction. Angles mean the same in all units; a gradient to a side goes from the opposite side to it; a gradient to a corner ends in it and has its middle in the two corners beside it.", "quantifier": "all angles, all boxes and all points in them", "why_tests_cant": "angles and sizes are numbers; corners of boxes that are not square are easily missed", "anchors": ["crates/gosub_render_pipeline/src/common/document/pipeline_doc.rs: parse_gradient_direction", "crates/gosub_render_pipeline/src/painter/commands/gradient.rs: LinearGradient::line", "crates/gosub_render_pipeline/src/painter/commands/gradient.rs: LinearGradient::rasterize_tile"]}
{"id": "C145", "title": "Tiles kept from earlier renders are painted back to front", "statement": "When tiles of an earlier render are mixed with new ones, exactly the baked tiles that the table of tiles knows are painted, each once, and no tile is painted over a tile of a layer further to the front.", "quantifier": "all tables of tiles, orders of layers and sets of baked tiles", "why_tests_cant": "the number of layers and tiles is unbounded, and the map of baked tiles has no order", "anchors": ["crates/gosub_engine/src/engine/context.rs: order_baked_tiles_by_layer"]}
{"id": "C146", "title": "Textures are kept under their identifiers", "statement": "After any history of adding textures (in memory or on the graphics card) all identifiers given are different, and the store gives under an identifier exactly what was added under it, unchanged, and nothing under others.", "quantifier": "all histories of calls", "why_tests_cant": "histories are unbounded", "anchors": ["crates/gosub_render_pipeline/src/common/texture_store.rs: TextureStore::add", "crates/gosub_render_pipeline/src/common/texture_store.rs: TextureStore::add_gpu", "crates/gosub_render_pipeline/src/common/texture_store.rs: TextureStore::get", "crates/gosub_render_pipeline/src/common/texture_store.rs: TextureStore::next_id"]}
{"id": "C147", "title": "Background layers are tiled as their lists say", "statement": "Each layer of a background is tiled with the size, position and repetition that the lists of these properties have for it; lists are split at their commas and start again from the beginning when they are shorter than the list of layers; without sizes the layers fill the box.", "quantifier": "all numbers of layers and all lists of groups", "why_tests_cant": "lists of any lengths are combined", "anchors": ["crates/gosub_render_pipeline/src/common/document/pipeline_doc.rs: bg_token_groups", "crates/gosub_render_pipeline/src/common/document/pipeline_doc.rs: resolve_bg_size", "crates/gosub_render_pipeline/src/common/document/pipeline_doc.rs: resolve_bg_position", "crates/gosub_render_pipeline/src/common/document/pipeline_doc.rs: resolve_bg_repeat", "crates/gosub_render_pipeline/src/common/document/pipeline_doc.rs: background_layers"]}
