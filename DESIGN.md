# Design

A Lean 4 model of parts of gosub-engine and machine-checked proofs about it.

## Layout

* `lean/Verif/<Area>/Model.lean` – executable, total functions transcribed from the Rust; every definition cites file and lines.
* `lean/Verif/<Area>/Spec.lean` – the small, independent specification a property is stated against (where one is needed).
* `lean/Verif/<Area>/Lemmas.lean` – helper lemmas.
* `lean/Verif/<Area>/Props.lean` – the property theorems only, each followed by an `example` showing that its hypotheses are met by a concrete case.
* `MANIFEST.json` maps property ids to theorem names; `seeded/LOG.jsonl` records the wrong-program experiments.

Naming: `C07_...` proves property C07. The suffix `_partial` marks a theorem that proves only part of the property; `_violated` marks a proof that the code as modelled does **not** have the full property (a concrete witness).

## Trusted base

* Lean 4.33.0's kernel. No axioms are added. Property theorems depend on at most `propext`, `Classical.choice`, `Quot.sound` (checked with `#print axioms`, see below).
* The reading of the Rust source. The Rust is not compiled or run; the only tie between model and code is the citation beside each definition.
* Modelling conventions
  * `usize`/`u64` counters are `Nat` and `i64` clocks are `Int` unless a property is about wrap-around; `f32`/`f64` layout arithmetic is exact arithmetic over `Int`/`Rat`.
  * `String` is `List Char` (or `String` where only equality matters); byte data is `List UInt8`.
  * `HashMap`/`HashSet` are association lists or functions; iteration order is never relied upon in a theorem (where the code's result depends on it, the model takes the order as input and the theorem quantifies over it).
  * `&mut` becomes a returned new state, panics are explicit error values.
  * Locks: a critical section is one atomic step; schedules are arbitrary lists of such steps.
  * Externals (public-suffix list, HTTP date parsing, URL parsing, file system calls, SQLite transactions) are parameters or explicit assumptions, named at the definition.

## Plan per property

| id | modelled | proof |
|----|----------|-------|
| C01 | UTF-8/Latin-1 decoder of `decode_from`, `append_str`, `close` over byte lists | resumable-decoder lemma: decoding is a fold that commutes with concatenation, induction on chunks |
| C02 | `extend_line_starts`, `location` with its cached hint | invariant: table = full scan table; hint walk finds the unique line; induction over chunks and queries |
| C03 | `read_and_next`, `prev_n` | case analysis on CR/LF at a token boundary; boundary invariant |
| C04 | `read_and_next` loop | induction on remaining characters against `collapse` spec |
| C05 | `look_ahead`, `get_slice`, `tell_bytes`, `seek_bytes` | offsets table strictly increasing → seek∘tell = id |
| C06 | UTF-16 branch of `decode_from` | violated: witness; partial for even-aligned chunks that do not split pairs |
| C07 | cookie jar store/remove/purge | invariant by induction over operations |
| C08 | `get_request_cookies` filter | membership equivalence with an independent predicate |
| C09 | same | invariant + C08 |
| C10 | store/expiry/purge | decision logic + C08 |
| C11 | `same_site`, policies | decision table + C08 |
| C12 | `is_valid_cookie_domain` with the public suffix list as parameter | label-wise domain-match spec; violated for IP addresses and trailing dot hosts, partial otherwise |
| C13 | prefix checks | invariant |
| C14 | final sort | sortedness and permutation |
| C15 | persistent jar over a store | invariant "disk = jar" after each acknowledged op |
| C16 | `save_file` as a list of file-system steps with crash after any prefix | case analysis on prefixes; rename assumed atomic |
| C17 | `provision_persistent_jar` as atomic steps | invariant over schedules |
| C18 | read-modify-write of the shared JSON file | sequential theorem + violated witness for interleaving |
| C19–C22 | storage services as maps keyed by identity | refinement to a function `Identity → Key → Option Value`; C22 violated witness on string encodings |
| C23, C24 | history arena | invariant parent < id, append-only; induction |
| C25 | decision hub as map + schedule | history invariant |
| C26 | ref tracker with atomic steps (sequentially consistent) | invariant over schedules; races with `inc` reported |
| C27, C28 | `decide_handling`, `route_response_for` | two-run equality; case analysis |
| C29 | `html_escape`, JSON viewer | round-trip by induction |
| C30–C34 | config store | invariants/refinement; C33, C34 violated with witnesses and partial theorems |
| C35–C42 | DOM arena and document operations | invariant by induction over operations; acyclicity via a rank argument |
| C43 | selector matcher over a document | soundness vs. declarative spec; violated completeness witnesses |
| C44, C45 | ordering of declarations, collection with shorthand expansion | the engine's maximum is the unique CSS winner; invariant relating the two collections to the assignments; violated witnesses |
| C46 | hover fingerprints | two-state induction over selector parts |
| C47, C48 | custom property collection; multiplier expansion | induction / finite case analysis |
| C49 | hex parser | round-trip |
| C50, C51 | character references, with the whole entity table | the loops refine a relation stating the HTML rules, which is shown to be functional; induction over digit strings and prefixes |
| C52, C53, C65–C67 | table model, grid, column and row sizes, geometry | slot-occupancy invariant; prefix sums; the set of boxes as a permutation of the parts |
| C54, C57, C68–C72 | layers, hit testing, placement of layers | the traversal as a function of lists of layers, by structural induction over the layout tree, then that function against a description by leaders; stable sorting |
| C55, C73 | tile budget: eviction, raster window, what is put off, use stamps | fold invariant with a ghost list of the position each buffer was counted at; sums over duplicate-free lists; the loop takes a prefix of the sorted candidates; histories of calls |
| C56, C74, C75 | compositing of tiles: index arithmetic, blending, placement | the loops by induction, pixel by pixel against a fold over the tiles; masks and shifts of packed pixels as arithmetic on channels; rounding |
| C58, C76, C77 | places: both stores over call histories, LIKE matching | tables with a key as functions of the history, by induction over it; sorted permutations; pattern matching by induction over the query |
| C78–C82 | tab worker: commands, tasks, answer channels, the loop, history, scroll, as a transition system over schedules | invariant over reachable states (order of answers, numbering of events, document shown), stages of the last navigation, flight of one navigation, schedules without overlap; concrete schedules for the violations |
| C83–C88 | scroll state, tween and spring animators, easing curves, the worker's scroll commands and frame tick | invariant over every history (target, ctx offset, report); order arguments on curves; bisection width for the Bézier solver; energy decay with irregular steps for the spring; concrete histories for the violations |
| C89–C93 | the HTML tokenizer, all 74 states, with the parser as an arbitrary function of the tokens so far | termination: a measure that falls at every round; C90: simulation, state by state, of the state machine of the standard (written out in `Spec.lean` from the standard's text, characters emitted one by one); C91, C93: what stretches of input do to the machine, by induction on them; C92: invariant per state |
| C94–C98 | the CSS tokenizer: every `consume_…` function of `tokenizer.rs`, and its token buffer | C94: every loop shortens the text, results do not depend on the number of rounds; C95: `Spec.lean` has section 4.3 of CSS Syntax Level 3 as inductive relations, shown to be deterministic, and each engine function is shown to yield what its relation allows, on text that is `Tame`; the rest is refuted by witnesses; C96, C97: induction on the serialised value; C98: invariant (the buffer is a prefix of the list, the text left has the rest) over every history of requests |
| C99–C102 | matching a value against the grammar of its property: `CssSyntaxTree::matches` and all it calls, for every grammar | `Spec.lean` has the value definition syntax as languages (`Component.lang`): concatenation, permutations, unions, powers, comma-joined lists, commas that go with what is left out; C99: by mutual induction over the grammar, what a matcher takes off the front is in the language; C100: likewise, with what may follow, a matcher takes exactly the longest word where the next value decides; C101: each round takes something, so rounds are bounded by depth and length; C102: case analysis against the types of CSS Values 4 |
| C103–C105 | the tree builder: every insertion mode, foreign content, the adoption agency, foster parenting and the main loop, over the document model of C35–C42 | panics are explicit; an invariant of the state between tokens (live nodes, a proper tree, what is open as long as a `frameset` may come) is kept by every handler (`Lemmas2`–`Lemmas10`), every handler ends with a result, and a lexicographic measure (tokens to come, weight of what was put back, open elements after which the mode is reset, rank of the mode) goes down with every round (`Lemmas11`); C104 is that invariant and C35–C37; C105 by induction over the text |
| C106 | the same model; a page as an inductive tree with its own rules for what may be where (`Spec2.lean`: `Fits`, `MayBe`), its tokens, and what it means for a document to be that page (`IsPage`, over the calls `children` and `dataAt` only) | mutual induction over the tree and its list of children: the parser inside an element (`Inside`) reads one child and is back where it was, with that child last (`After`, `Grow`); opening and closing is proved kind by kind (blocks, paragraphs, headings, lists, formatting with Noah's Ark and the adoption agency, objects with markers, forms, void and text-only elements, tables with their modes and `reset_insertion_mode`); left out: templates, framesets, foreign content, select, ruby, pre and textarea (the line feed), noscript, nobr, implied tags and misnested markup (for those C103 and C104 hold) |
| C107 | the tokenizer model of C89–C93 and the tree builder model of C103–C106 run together: the tokenizer is switched to the state that the tree builder has asked for after the same tokens (`Serves`, `Spec3.lean`); the text of a page is a separate function on trees (`Tree.write`) | the tree builder's run is followed for every prefix of the page's tokens to see what it asks for (`Reads`, `Asked`); the tokenizer's run over the text of each tree is an induction over the tree that carries the pending text (`Prints`), with the raw text lemmas of C92; both runs are deterministic, so the tokens are the page's and C106 applies |
| C108 | `writer.rs` as a recursion over the document with fuel (`Writer.writeNode`), the order in which a hash map of attributes is visited being a parameter; the rest as C107 | on a page without void elements and special characters the written text is `Tree.write` of the page with its attributes reordered, so C107 applies; three counterexamples: the text written for one page is the text of another |
| C109 | the CSS parser over a list of tokens, every function of it; a loop gets 14 rounds per token left and 40 more, and gives `hang` if these run out; a call deeper into the cycle of functions takes one of `d` levels of stack, and gives `deep` if there is none | every round of every loop consumes or lowers a small weight, by one invariant for all functions (`Good`, `Back`, `Strict`); a call one level down has fewer tokens left; by induction on the levels, more of them give the same |
| C110 | as C109, with the parser's own counter and its limit of 64 | false: by induction, `@media (a b)(a b)…` with n + 1 wrong features needs more than n levels; partial: the levels used are bounded by the counter and by the parentheses open (`Low`) |
| C111 | written stylesheets (`Spec.lean`) with their tokens and the rules meant; the conversion of the tree into rules (`ast.rs`) | running the parser on the tokens of a written value, declaration, selector, rule, stylesheet, by induction on each |
| C112 | written stylesheets with mistakes in between (`Spec2.lean`) | the error leaves the position inside the mistake, the recovery goes to its end: induction on plain and on balanced tokens; five counterexamples by evaluation in the kernel |
| C113 | as C109 | every function of the stylesheet level gives no error when errors are ignored; three counterexamples in the conversion to rules |
| C114 | as C111 | corollary of C111: what is parsed depends only on the rules meant; two counterexamples |
| C115 | `CssTok/Written.lean`: how each token is spelled, which tokens can be written, which may stand side by side; on top of C111 and C112 | each token is read back from its spelling when what follows lets it (induction over the tokens); then C111; one counterexample |
| C116 | `Zones/Model.lean`: the engine as a machine over calls (start, run, poll, subscribe, create, close, shutdown) with answers and effects | invariants over the history: the registered zones are the open ones, one place each; two counterexamples |
| C117 | the tabs of one zone as a machine over creating, closing and ending tabs and setting the limit | the list equals the list the history implies (induction over the history); two counterexamples |
| C118 | the same machine as C116, with the run-loop future as a small state (unmade, idle, driven, gone) and the effects in order | invariants that tie each state of the loop to a shape of the history; three counterexamples |
| C119 | `resolve_tab_services` and the jars a store keeps per zone, over histories of tabs and releases | a ghost list records who owns each object that was made; two tabs share exactly when the sources agree |
| C120 | the I/O thread as a fold over the commands, with the moment of its end | invariant: the table of fetchers is what was started and not stopped in the log; one counterexample |
| C121 | the binding of local and session storage on top of C119 | from C119 and the injectivity of the area; one counterexample |
| C122 | the forwarding tasks with their channels, over changes and turns | invariant: told and unread changes of a zone together are its changes; three counterexamples |
| C123 | `get_style` over the list of a node and its ancestors, with the table of properties | refinement to the top-down definition of CSS, by induction on the ancestors; six counterexamples |
| C124 | the parser of the style attribute on lists of characters with UTF-8 lengths, and the sorted map of a node | round trip from texts built from a grammar of declarations, by induction; invariant for the map; six counterexamples |
| C125 | ids of generated nodes with their bits, and the view of the document with generated content | injectivity and a refinement to a tree of real and generated nodes |
| C126 | the recursive building of the render tree | induction over finite trees; the tree is exactly the shown nodes |
| C127 | the walk from the node under the pointer, and the state of hover | invariant over all histories of moves, repaints and rebuilds; two counterexamples |
| C128 | the same state with the cache of styles and the region that is repainted | invariant over all sequences of moves, each with its repaint; two counterexamples |
| C129 | the list of elements that can be focused and the step in it | induction over the order of the document; arithmetic modulo the length |
| C130 | the strings of the pages, read by the model of the tokenizer | composition of round trips: escaped texts, printed tags and raw text; a counterexample for names |
| C131 | the registry with its two maps | induction over all histories of registrations |
| C132 | the cutting of layers into tiles, with rational coordinates | the cell of a point by floor and ceiling; the loops as one map over the cells; a counterexample for negative margins |
| C133 | the same | the span of the first layer; a counter for ids |
| C134 | the console with its counters, groups and printer | invariants of a history by induction from its end; counterexamples for assert and clear |
| C135 | the same, with the clock as an argument of each call | the first start of a timer as an invariant; counterexamples for a second start and a clock set back |
| C136 | the store of images as a transition system: a step is one access to a lock or an atomic | an invariant per source: the mark of being in flight has one owner, what a thread at each place knows; a counterexample for a source that is the key of a size of an SVG |
| C137 | the same, with a log of events | each request that missed is followed by news or by a thread at work; a counterexample for a thread that cannot be started |
| C138 | the loop of a query over the iterator of the tree of C35-C42 | induction on the walk in document order (C37): what the loop collects is what is left of the walk |
| C139 | the decision and its tables, with lower case in Unicode as a parameter | a plain ASCII text begins the lower case of an identifier iff the identifier begins with it up to case; then all cases against the rules of the standard; two counterexamples |
| C140 | the table of timers and namespaces after a history of calls | an invariant that ties the table to what was started and measured in the history; quantiles of a sorted list |
| C141 | the event loop as a transition system with two channels | an invariant that ties calls, channels and listeners to what was handled; a measure for the end of the loop |
| C142 | positions of colour stops and the colour at a point, over rationals | induction over the stops: the filled list is the one of the CSS fixup and does not decrease; the pair found is around the point |
| C143 | `min()`, `max()`, `clamp()` over lengths in units, over rationals | the size of each unit follows from the equations of CSS; folds by induction |
| C144 | the direction and the line of a gradient over real numbers, with sine and cosine of Mathlib | the position in closed form; case analysis on signs; values of sine and cosine |
| C145 | the reordering of baked tiles | the keys are a sublist of the tiles in order of layers; induction |
| C146 | the store of textures | an invariant over histories |
| C147 | the groups of background lists and the tiling of each layer | round trip for the split at commas; remainder for the cycle |
| C59 | stream loaders (`read_from_str`, `read_from_bytes`, …) | replacement lemma; violated witness for a used stream |
| C60 | `Cookie` header text | unambiguous parse of the joined pairs |
| C61 | removal/clear calls of the jar | exact set difference |
| C64 | shorthand matching of rejected values | the assignments of a rejected declaration are empty when nothing matched; violated witness |
| C62 | settings constraints as text | round trip; violated witness (panic) |

Runtime aspects no model here can exhibit: real thread timing and weak memory, real file-system durability, floating-point rounding, network I/O.

## What is modelled, area by area

Everything not named here is not modelled (rendering back ends, JavaScript, network transport, layout of inline content, fonts, the UI shell, CLI tools, tests).

| area | modelled | left out or assumed |
|------|----------|---------------------|
| ByteStream (C01–C06, C59) | `gosub_shared/byte_stream.rs`: decoding of UTF-8, UTF-16 and Latin-1 chunks, character reading with CR/LF collapsing, look-ahead, slices, seek/tell, line table with cached hint | encoding detection by chardet; other encodings |
| Cookies (C07–C14, C60, C61) | `gosub_engine` cookie jar: attribute parsing, domain/path/secure/same-site decisions, store, get, purge, removals, header text | public suffix list and HTTP-date parsing are parameters |
| CookieStore (C15–C18) | persistent jar, JSON file store with temp file and rename, SQLite store as a table, provisioning | rename and one SQL transaction are atomic; what was written before a crash is what a later read sees (no model of disk caches) |
| Storage (C19–C22) | local/session storage services, partitions and their encodings | origin computation of `url` crate is a parameter |
| History (C23, C24) | navigation tree | – |
| Hub (C25) | decision hub: open, fulfil, expire, cancel as atomic steps | tokio oneshot channels deliver what was sent |
| RefTracker (C26) | reference counting of shared resources as atomic steps | `Relaxed` atomics are sequentially consistent here |
| Decision (C27–C29) | request/response classification, sniffing, routing, internal text/JSON viewers | MIME parsing of malformed headers beyond what is cited |
| Config (C30–C34, C62) | settings store, subscriptions, constraints, text forms, SQLite/JSON adapters | float text conversion and wildcard matching are parameters |
| Dom (C35–C42) | `gosub_html5` arena, tree mutation, ids, classes, hover, tree iterator, task queue | `update_node`/`register_node_at` (only used by tests), locations, quirks mode |
| Select (C43, C45, C46) | `gosub_css3` selector matching (`matcher/styling.rs`), specificity, hover fingerprints (`system.rs`) and the hover state of `context.rs:update_hover`, over a view of a document; every document built by attaching unattached nodes satisfies the assumptions on the view (`ofDoc_ok`) | `:not`, `:is`, `:has`, `:nth-*` and unknown pseudo-classes (the code never matches them); parsing of selectors; the list of nodes to restyle |
| Cascade (C44, C47, C48, C64) | `gosub_css3`: collection of declarations for a node, cascade order, expansion of one- to four-value shorthands with its step counter, nested shorthands, custom properties, `var()` | the grammar of one value is a list of tests; other shorthands, function resolution before matching and `background` recovery are parameters |
| Color (C49) | `gosub_css3/colors.rs`: hexadecimal colours | other colour syntaxes (external crate, floats) are a parameter |
| CharRef (C50, C51) | `gosub_html5/tokenizer/character_reference.rs` (all states, `find_entity`), `replacement_tables.rs` (both tables, the 2231 names generated into `CharRef/Table.lean`) | stream = remaining characters of a closed stream, CR LF collapsed (ByteStream area); parse errors left out |
| Table (C52, C53, C65–C67) | `gosub_lattice`: `model.rs`, `grid.rs`, `sizing/`, `compute.rs` as a whole; `apply_recursive` of the render pipeline | `f32` is exact (rational, no rounding, no NaN, no overflow); laying out the content of a cell is a function of the cell and the width; captions, columns and border collapsing are recorded by the code and never used |
| Layers (C54, C57, C68–C72) | `layering/layer.rs` as a whole; `StickyConstraint`, `TileAnchor`, `anchored_tile_pos` of `backend.rs`; the factor of `apply_opacity` (painter.rs) | numbers are exact; the arena of layout nodes is unfolded into a tree; the styles read are fields of the element (style lookup is not modelled); one thread, so the locks are left out |
| TileBudget (C55, C73) | `tile_budget.rs` as a whole | numbers are exact and unbounded; positions are keyed by bit patterns whose value (`f64::from_bits`) is a parameter; a buffer is its address and length; GPU pixels are one constructor; the iteration order of the hash maps is any |
| Composite (C56, C74, C75) | `tile_composite.rs` as a whole; `PixelFormat`, `swap_rb`, `blend_over_argb_u32`, `scale_premul_argb_u32`, `mul_div255_pair` (backend.rs) | floats are exact rationals; `u32` is a natural number and overflow a panic; `cast_slice` succeeds (alignment and length of the data) |
| Places (C58, C76, C77) | `places.rs`: `MemoryPlaces` and the statements of `SqlitePlaces` | the clock is an argument; database failures are not modelled; Unicode lower-casing is a parameter; SQLite by its documentation (upsert, LIKE with escape, ASCII case folding, the 50000-byte pattern limit, texts end at NUL in LIKE and length, any order among equal keys) |
| TabNav (C78–C82) | `tab/worker.rs`: navigate_to, navigate_same_document, load_html, history commands, cancel, on_nav_result, the part of the `select!` loop that takes answers, apply/reset/deferred scroll; `context.rs` set_scroll | navigation ids are numbers in the order they are taken; a navigation task is three steps (response, no response, answer); the URL parser and fragment positions are parameters; user scrolling sets any offset; `f64` exact; favicons, fonts, cookies, drawing, downloads other than the offer are left out; events are assumed to arrive |
| Scroll (C83–C88) | `gosub_shared/animation.rs` 1-412; `tab/scroll.rs` 1-113; `tab/worker.rs` 897-909, 1020-1068, 1334-1343, 1630-1636, 1767-1818, 2027-2035; `context.rs` 273-331, 643-648, 706-708 | `f32`/`f64` exact rationals, no NaN or infinity; the sine and power of the elastic curve are an arbitrary function; custom animators are left out; frames carry their length |
| HtmlTok (C89–C93) | `gosub_html5/tokenizer.rs` 24-30, 104-172, 183-2295; `tokenizer/state.rs`; `parser.rs` 455-486, 3820-3842 as far as the tokenizer sees them | input: characters after the byte stream's CRLF collapsing (C04); parse errors and source locations left out; the parser is a function from the tokens so far to a state switch and the foreign-content flag; `char::to_uppercase` beyond ASCII is a parameter; text the parser splits and puts back is left out |
| CssTok (C94–C98) | `gosub_css3/tokenizer.rs` 225-330, 342-995; `unicode.rs` | input: a closed list of characters without lone surrogates; locations left out; the text of a number instead of `parse::<f32>` of it; `char::is_whitespace` and `char::is_numeric` beyond ASCII are parameters; loops have a number of rounds and theorems hold for every sufficient number |
| Grammar (C99–C102) | `gosub_css3/matcher/syntax_matcher.rs` 17-1180 without the shorthand resolver; the component types of `matcher/syntax.rs` 33-224 | grammars are any components, not read from the definition files; `f32` is ℚ; matched values (only used by shorthands) left out; the tables of named and system colours are parameters; loops count rounds |
| TreeBuild (C103–C108) | `gosub_html5/writer.rs` 16-81 and `gosub_html5/parser.rs` 132-4044: the parser with all insertion modes, foreign content, the dispatcher and `parse_fragment` | tokens come as any list (the tokenizer is C89–C93; what it is asked for is recorded but does not change the list, so every list is covered); parse errors, locations, script execution, stylesheet loading and encodings left out; the tables that adjust foreign attributes, lower-casing and the quirks table are parameters; `panic!`, indexing out of range and `unwrap` on nothing are `none` |
| CssParse (C109–C115) | `gosub_css3/lib.rs` 39-136, `parser.rs`, `parser/*.rs` and `parser/at_rule/*.rs`, and `ast.rs` 64-219 and 327-342: the parser with all at-rules, selectors, values, calc expressions and conditions, and the conversion of the tree into rules | the parser reads any list of tokens (C98 is that the token buffer is one; C94–C97 are about the tokenizer); locations, messages and font faces left out; numbers stay the text that was read; which texts are zero, how a number is printed, lower-casing, trimming and the text between two positions (`slice`) are parameters; that a colour function becomes a colour is left out |
| Zones (C116–C122) | `engine/engine.rs` 143-354, `engine/zone/zone.rs` 301-441, `engine/tab/services.rs` 21-76, the storage binding of `engine/tab/worker.rs` 2122-2140, `engine/storage/types.rs` 48-53, `engine/cookies/store.rs` 180-226 and `in_memory.rs` 29-53, `net/io_runtime.rs` 107-264 | what a closed zone's tabs do is one effect; ids, origins, stores and services are numbers; whether a worker starts, a fetcher can be built or a store provides a jar, and the order in which tasks get turns, are parameters; commands are handled one at a time, as the I/O loop does; channels are queues of 512 |
| Style (C123) | `gosub_render_pipeline/src/common/document/style.rs` 13-125, 223-447, 450-920; `pipeline_doc.rs` 708-760, 1014-1111 (the choice among the sources and `currentcolor`), 1216-1241, 1493-1501 | `f32` (an abstract type with any multiplication); how a sheet value is turned into a `Value` (`css_property_to_value`); the shorthands `background` and `text-decoration` and the physical insets in `style_from_map`; the matching of rules and the cascade (areas Select and Cascade) |
| Style (C124) | `gosub_render_pipeline/src/common/document/inline_style.rs` 9-344, 382-448; `style.rs` 927-956 | the value of a number (`f32::from_str`, a parameter; which texts are numbers is modelled), the alpha byte of `rgba`, the table of named colours (parameters); the keys `font-weight`, `text-align`, `line-height`, `text-wrap` and `text-decoration`; the binary search (a search) |
| RenderTree (C125, C126) | `gosub_render_pipeline/src/common/document/pipeline_doc.rs` 778-810, 933-960, 1001-1009, 1132-1214, 1418-1451; `rendertree_builder/tree.rs` 99, 158-231 | what content a rule generates (a parameter), the styles of the nodes (see C123) |
| Interact (C127–C129) | `gosub_engine/src/engine/context.rs` 51-112, 753-1004, 1315-1417; `engine/tab/worker.rs` 1144-1176 | the hit test (a parameter: a move comes with the node and the layout element under it), coordinates as integers, which nodes a rule with `:hover` can touch (a parameter), resolving of addresses, images and text of the hit test |
| Pages (C130, C131) | `gosub_engine/src/engine/internal_pages.rs` 78-145, 165-193, 227-313 | the pages `home` and `help`; where settings, history and version come from (arguments); how the `url` crate splits an address (arguments: its host and path, and its text in ASCII); the order of the list of names; the switching of the tokenizer by the tree builder is a hypothesis (`Usual`) |
| Tiler (C132, C133) | `gosub_render_pipeline/src/tiler.rs` 108-166, 219-378, 395-417; `layouter/box_model.rs` 70-76 | rounding and the limits of `f64` (coordinates are rationals), sizes of tiles that are not positive, the search tree of `rstar` (it finds what meets a rectangle, borders included), paint commands and textures |
| Console (C134, C135) | `gosub_jsapi/src/console.rs` 20-300; `console/formatter.rs` 14-21; `console/writable_printer.rs` 16-100 | `table`, `dir`, `dirxml`; overflow of counters (`u64`); errors of the writer; the random label of a group without data is an argument |
| Media (C136, C137) | `gosub_render_pipeline/src/common/media/media_store.rs` 53-93, 99-133, 146-242 | the order of relaxed atomics (memory is sequentially consistent), equal SHA-256 hashes, fetching and decoding (any result), `update_svg`, overflow of ids, panics in a fetching thread |
| Dom queries (C138) | `gosub_html5/src/document/query.rs`, `gosub_html5/src/parser/query.rs` | the builder functions of `Query` (a query is its kind and list of conditions), the text of the error |
| Quirks (C139) | `gosub_html5/src/parser/quirks.rs` 8-154 | lower case of characters outside ASCII: a parameter that never begins with an ASCII character, but for the Kelvin sign and the dotted capital I; lower case of a sigma by its place |
| Timing (C140) | `gosub_shared/src/timing.rs` 38-162, 337-414 | the clock (any times), random ids (they do not repeat), rounding of percentages in floats (exact below 2^45 timers), overflow of sums, wasm, printing |
| EventLoop (C141) | `gosub_web_platform/src/event_listeners.rs`, `gosub_web_platform/src/lib.rs` 20-107 | the channels and `select!` of tokio (order of messages kept, any ready channel may be picked, a sender waits while the channel is full), what callbacks spawn, panics in callbacks, `timers.rs` |
| Gradient (C142) | `gosub_render_pipeline/src/common/document/pipeline_doc.rs` 364-429, `painter/commands/gradient.rs` 50-82 | floats are rational numbers; the reading of colours and percentages, second positions and lengths of a stop (ignored by the code), drawing by the backends of gradients that are not tiled |
| CssMath (C143) | `gosub_css3/src/functions/math.rs`, `gosub_css3/src/stylesheet.rs` 473-499 | floats are rational numbers; the viewport is a parameter; nested functions are not resolved (by the code neither) |
| Gradient, Line (C144) | `gosub_render_pipeline/src/common/document/pipeline_doc.rs` 433-466, `painter/commands/gradient.rs` 36-46, 87-101 | floats are real numbers; the reading of words and numbers with units; bytes of pixels |
| BakedOrder (C145) | `gosub_engine/src/engine/context.rs` 1503-1522 | the search for tiles (its answer is a parameter, tiles of the layer asked for), what is in a tile |
| Textures (C146) | `gosub_render_pipeline/src/common/texture_store.rs` | the map and the lock; identifiers are natural numbers |
| BgLayers (C147) | `gosub_render_pipeline/src/common/document/pipeline_doc.rs` 493-617, 1272-1303 | lengths are integers; the reading of values, the gradients of the layers (C142), `background_image_layout` |

## Violations found

Each is a theorem with suffix `_violated`, or a remark where no property was claimed.

* C06 `C06_utf16_chunking_violated`: a UTF-16 chunk boundary right after a high surrogate changes the text.
* C10 `C10_max_age_overflow_violated`: adding a huge `Max-Age` to the clock overflows.
* C12 `C12_ip_hosts_violated`, `C12_trailing_dot_violated`: dotted suffixes of IP addresses are accepted as domains, and so is the empty domain for hosts with a trailing dot.
* C15 `C15_stale_handle_violated`, `C15_stale_provision_violated`, `C15_sqlite_policy_violated`: a jar kept across `release_zone`, and overlapping provisions, lose acknowledged changes; the SQLite store does not keep the third-party policy.
* C16 `C16_concurrent_violated`: two saves at the same time share one temporary file.
* C18 `C18_concurrent_violated`, `C18_unparsable_violated`: overlapping JSON calls lose updates; an unparsable file is replaced.
* C21 `C21_noop_violated`, `C21_dropped_violated`, `C21_concurrent_violated`: storage events are sent for calls that change nothing, are lost for areas of dropped tabs, and can be sent out of order.
* C22 `C22_empty_custom_violated`, `C22_custom_top_violated`, `C22_opaque_violated`: string encodings of partition keys and opaque origins collide.
* C24 `C24_back_forward_violated`: after a jump into another branch, back then forward goes elsewhere (`go_to` only updates the direct predecessor's preferred child).
* C26 `C26_race_violated`, `C26_unmatched_violated`: an `inc` racing with the last `dec` revives a resource that is being released; an unmatched `dec` wraps around; nothing in the engine calls `finalize`.
* C27–C29 remarks: the text page loses a leading line feed (the parser skips one after `<pre>`); `application/xhtml+xml` and `text/javascript` are not trusted declared types; an attachment with downloads disabled is rendered; only the first `X-Content-Type-Options` line, and only exactly `nosniff`, counts; the UTF-8 test fails if byte 512 splits a character; the upgrade branch `decision.rs:56-66` is dead; a declared type is overridden by a sniffed PDF.
* C30 `C30_unsigned_violated`, `C30_set_storage_violated`: an unsigned range with a negative lower bound accepts `usize::MAX`; `set_storage` bypasses type and constraint checks.
* C31 `C31_merge_hides_stored_violated`: merging hides a value that is stored but not declared.
* C32 `C32_failed_write_violated`: a failing write changes the value without a notification. Remark: a NaN setting counts as changed on every write.
* C33 `C33_comma_violated`, `C33_empty_violated`: list elements with a comma, and the list of one empty string, do not round trip.
* C34 `C34_set_violated`, `C34_json_file_violated`: `set` changes memory before storage, so a failing write leaves the new value and no notification; the JSON file is truncated and then written.
* C35 `C35_up_violated`: with an id not handed out yet, two nodes can name each other as parent; hovering then never ends.
* C36 `C36_violated`: attaching an attached node does not take it off the old parent, or lists it twice.
* C37 `C37_once_violated`: such a node is visited twice.
* C38 `C38_clone_violated`: cloning a missing node returns the id given.
* C39 `C39_attribute_violated`: a queued attribute is dropped when its value equals another element's id, whatever the attribute.
* C40 `C40_violated`: the id table goes stale on attribute removal, attribute change and node deletion.
* C41 `C41_remove_violated`, `C41_unicode_violated`: removing a class attribute with several words keeps the classes; Unicode white space separates classes.
* C43 `C43_missed_match_violated`, `C43_wrong_match_violated`, `C43_form_violated`: descendant and `~` search is greedy and restarts at the wrong element; text nodes count as siblings; `[a~=v]`, `[a=v i]` and empty `^=` are wrong; the document node matches `*`.
* C45 `C45_violated`: the first matching selector of a list counts, not the most specific; attributes, pseudo-classes and pseudo-elements do not count.
* C46 `C46_violated`: because of the greedy search, `a:hover c` stops matching when the pointer moves deeper, although the fingerprint names no changed element.
* C44 `C44_order_violated`: longhands set by shorthands are appended after all others, so `margin: 0; margin-top: 5px` gives 0. `C44_nested_violated`: what a shorthand inside a shorthand sets (`border` → `border-width` → …) loses origin, importance and specificity.
* C47 `C47_strength_violated`: among the declarations of a custom property on one element the last is taken, whatever its specificity or importance. `C47_fallback_violated`: the fallback of `var(--x, red)` is the comma. Remarks: `attr()` has the same flaw; `var()` inside a custom property's value is not resolved.
* C48 `C48_order_violated`: `border-width`, `inset` and `corner-shape` list their longhands in an order the expansion does not expect. `C48_twice_violated`: a value that two alternatives of the grammar match counts twice (`border-color`). `C48_unexpanded_violated`: grammars that are not groups (`scroll-margin`) and CSS-wide keywords set no longhands.
* C64 `C64_violated`: `margin: 1px red` is rejected, but the longhands set by the values before the bad one stay.
* C52 `C52_violated`: a cell several columns wide is put over a cell that spans rows from above, and the forgotten span lets later cells land on it too.
* C53 `C53_violated`: rows outside any row group are laid out from the top of the table, over its header. `C53_row_box_violated`: the box of a row leaves out the gutters and ends before its last cell does.
* C65 `C65_violated`: a cell spanning rows adds no height to them; its box can be flat.
* C66 `C66_violated`: a column without a specified width can get no width at all although its cell has content. Remark: `colspan` is not limited, so one attribute decides how many columns are allocated.
* C55 `C55_shared_violated`: a buffer held at two positions is counted at the first only; evicting that position frees nothing and the report says it did. No code path found in the repository shares a buffer between positions, so this is a gap of `enforce` taken alone.
* C59 `C59_read_from_bytes_violated`: `read_from_bytes` on a used stream keeps the old text.
* C62 `C62_panic_violated`: an item that starts with a multi-byte character panics.
* C68 `C68_violated`: layers do not nest, so a translucent, `fixed` or `sticky` element with a z-index below that of the stacking context around it is painted under the background of that context.
* C69 `C69_violated`: an image outside any group gets a layer of its own above the page layer, so it covers whatever comes after it in the document.
* C71 `C71_violated`: layers do not nest, so a translucent element in a translucent one is faded by its own opacity only.
* C72 `C72_violated`: a translucent element (or one with its own compositing reason) in a `fixed` one gets a layer that scrolls.
* C75 `C75_violated`: positions are rounded away from zero at halves, so between a tile that starts above (left of) the screen edge at a half and the next one a row (column) of background shows. The engine rounds its scroll offset, so this needs a sticky layer at a fractional offset or a host that scrolls by fractions.
* C58 `C58_sqlite_case_violated`: the documentation says case-insensitive; the SQLite store ignores case in ASCII only, so `é` finds a page titled `É` in an ephemeral zone and not in a persistent one. `C58_sqlite_long_violated`: a query over SQLite's pattern limit finds nothing.
- C79: a page whose response has come in is not cancelled by the next navigation; it is shown, pushed and recorded, and the loading state ends, although the user has gone elsewhere (`C79_superseded_violated`).
- C80: the failure of an overtaken navigation ends the loading state of the one in flight and is reported with its address (`C80_stale_failure_violated`); a blocked navigation leaves the tab loading for ever (`C80_blocked_violated`); of three navigations in a row the second is never reported as ended (`C80_lost_outcome_violated`); a storage failure is reported twice (`C80_bind_failure_violated`).
- C81: a second navigation before the first has come in saves the cleared offset over that of the page shown (`C81_overwritten_violated`); a page with a fragment left at the top comes back at the fragment (`C81_top_of_fragment_violated`); a load that fails leaves the page shown but scrolls it to the top (`C81_failed_load_violated`).
- C82: a page without a title is recorded under the title of the page before it (`C82_untitled_violated`).
- C84: a window that grows after scrolling to the end shows space past the page (`C84_resize_violated`); nothing limits horizontal scrolling (`C84_sideways_violated`); a request made before the page is laid out leaves it past its end (`C84_unrendered_violated`).
- C85: End pressed before layout makes the tab report an offset far from the one drawn (`C85_unrendered_violated`).
- C87: `jump-start` uses the ceiling and is one step behind CSS at the jump instants (`C87_jump_start_violated`).
- C88: an undamped spring never comes to rest (`C88_undamped_violated`); a strongly damped one diverges (`C88_overdamped_violated`).
- C90: the attributes of an end tag are kept and given to the next start tag (`C90_end_tag_attributes_violated`); `PUBLIC`, `SYSTEM` and `DOCTYPE` are compared after Unicode upper-casing, so that `PUBLıC` counts as `PUBLIC` (`C90_lookalike_violated`); a lone CR is not turned into LF (`C90_lone_cr_violated`).
- C95: white space and numerals beyond ASCII (`C95_unicode_space_violated`, `C95_unicode_number_violated`: `tokenizer.rs` 365 and 487 use `is_whitespace`/`is_numeric`), no replacement of NUL, CR and FF (`C95_nul_violated`, `C95_return_violated`), `URL(` (`C95_url_case_violated`), white space and escapes inside urls (`C95_url_space_violated`, `C95_url_escape_violated`, `C95_url_quote_violated`), the end of a bad url (`C95_bad_url_violated`), a backslash at the end of a string or before a newline in a name (`C95_string_end_violated`, `C95_name_newline_violated`), the escape for U+10FFFF (`C95_last_code_point_violated`), and `u+a` read as a unicode range (`C95_range_violated`).
- C97: an identifier that begins with a no-break space is read as white space (`C97_space_violated`), `u` before `+a` as a unicode range (`C97_range_violated`).
- C99: a list or a `!` before something else, a component that can be left out beside a comma, and stacked multipliers let in values that the grammar does not allow (`C99_accepted_valid_violated_list`, `…_leading`, `…_trailing`, `…_missing`, `…_stacked`, `…_bang`).
- C100: the matcher does not go back: `a? a` rejects `a`, `first? , second? , third?` rejects `first`, `a# , b` rejects `a , b`, `c [a? b?]` rejects `c` (`C100_valid_accepted_violated_greedy`, `…_commas`, `…_list`, `…_group`).
- C101: a repeated group that can be empty hangs (`C101_answers_violated_loop`), a property reference that is left in the grammar panics (`C101_answers_violated_panic`). The quoted operators of `<calc-sum>` are read as such references, so `width: calc-size(auto, 1px)` in a page panics.
- C108: the writer writes an end tag for elements that have none, and text and attribute values as they are: `<br>` comes back as two, the text `<b>x</b>` as an element, the attribute value `1" id="2` as two attributes (`C108_void_violated`, `C108_text_violated`, `C108_attribute_violated`).
- C110: `recurse` counts blocks, functions, selectors and expressions, but `parse_condition` calls itself without it after a wrong feature in parentheses: `@media (a b)(a b)(a b)…` goes down one level for each (`C110_stack_violated`); the stack overflows on a long enough stylesheet.
- C112: when a declaration or rule fails at the token that ends it, that token has been consumed already, and recovery goes on to the end of what follows: `a{color}b{x:y}` loses `b`, `a{color;x:y}` loses `x`, `a{.}b{x:y}` loses `b`, `a:{}b{x:y}` loses everything; a rule not closed at the end is lost (`C112_*_violated`).
- C113: an empty stylesheet, a percentage as a selector and `&` outside a rule make the whole stylesheet an error although errors are ignored (`C113_*_violated`).
- C114: `a ,b` is read as the selectors `a ` (with a combinator and nothing after it) and `b`; `[a] b` is read as `[a]b` (`C114_comma_violated`, `C114_attribute_violated`).
- C115: the selector `u+a` is read as a range of code points, and its rule is dropped (`C115_range_violated`).
- C116: a second zone with the id of an open one is given and takes no place, so any number can be open (`C116_same_id_violated`); with nobody receiving events every `create_zone` fails and keeps its place (`C116_unheard_violated`).
- C117: a tab whose worker ended by itself still counts (`C117_ended_tab_counts_violated`); a tab whose creation failed stays listed (`C117_failed_tab_listed_violated`).
- C118: `shutdown` waits for ever while the run loop is not polled (`C118_unpolled_violated`); zones are given after the shutdown (`C118_zone_after_shutdown_violated`); of two zones with one id only one store is saved (`C118_same_id_unsaved_violated`).
- C119: in a zone with neither jar nor store every tab has a jar of its own (`C119_no_store_violated`).
- C120: a request after the shutdown of its zone starts a new fetcher for the closed zone (`C120_closed_zone_violated`).
- C121: the partition key of a tab is ignored, and such tabs use the global partition (`C121_partition_key_violated`).
- C122: zones with one storage service report each change under every zone (`C122_shared_storage_violated`); changes in a tab's own storage are never reported (`C122_own_storage_violated`); a burst of more than 512 changes ends the reports of a zone for ever (`C122_burst_violated`).
- C123: `rem` is 16px whatever the root says (`C123_rem_violated`); a font size in percent counts as 16px for `em` and is inherited as a percentage (`C123_percent_font_violated`); the `style` attribute beats `!important` rules (`C123_important_violated`); a border without a colour is black, not the colour of the text (`C123_border_color_violated`); `text-wrap` is not inherited (`C123_text_wrap_violated`); `color: currentcolor` is black (`C123_color_current_violated`).
- C124: a colour with a character of more than one byte makes the engine panic (`C124_hex_panic_violated`); percentages, other units and `!important` are kept as words (`C124_units_violated`); texts that are no values become lengths and colours (`C124_accepted_violated`); an invalid declaration replaces a valid one (`C124_invalid_replaces_violated`); `#rgba`, large and percentage components of colours are read wrongly (`C124_colors_violated`); capital letters, semicolons in `url()` and comments are not understood (`C124_syntax_violated`).
- C125: a node that is looked up by its id does not list its generated children (`C125_node_children_violated`).
- C127: a click opens the link where the pointer last moved, also if the page was scrolled since (`C127_click_violated`); generated content of a link is not part of the link (`C127_generated_violated`).
- C128: two moves before a repaint leave the styles of the first behind (`C128_missed_move_violated`); tiles of a hovered ancestor that the innermost element does not touch are not redrawn (`C128_region_violated`).
- C129: `tabindex` does not change the order, a negative one also stops clicks, and `disabled` and invalid numbers take links out (`C129_html_violated`).
- C130: the page for unknown addresses does not escape the names of registered pages (`C130_names_violated`).
- C132: an element with a negative margin is not drawn on tiles that only its border box meets (`C132_negative_margin_violated`).
- C134: `console.assert` drops all data but the first (`C134_assert_violated`); `console.clear` leaves groups open (`C134_clear_violated`); the printer that writes to a stream writes nothing for `debug`, `trace` and `count` (`C134_silent_violated`).
- C135: `console.timeEnd` does not remove the timer (`C135_restart_violated`); a system clock that is set back is a panic (`C135_clock_violated`).
- C136: the cache is shared by sources and keys of SVG sizes, so an image with the source `svg-tile:100:16x16` replaces a picture of an SVG by the placeholder (`C136_tile_violated`).
- C137: if the thread for a fetch cannot be started, the request is answered with `Pending` and nothing follows (`C137_spawn_violated`).
- C139: the system identifier of IBM is compared as a prefix, so longer ones give quirks mode too (`C139_longer_violated`), and only after the public identifiers for limited quirks, so XHTML 1.0 Transitional with this system identifier gives limited-quirks mode (`C139_order_violated`).
- C142: positions outside of 0-100% are moved to the ends of the line (`red -100%, blue`); decreasing positions are raised only after gaps are filled (`red 80%, green 20%, blue, red`); colours are mixed without premultiplying, so that `red, transparent` is dark in the middle (`C142_outside_violated`, `C142_order_violated`, `C142_transparent_violated`).
- C143: in `min()`, `max()` and `clamp()` an `em` or `rem` is always 16px, units not written in lower case and unknown units are px, and numbers become px (`C143_em_violated`, `C143_unit_violated`, `C143_number_violated`).
- C144: a gradient to a corner is always at 45 degrees, whatever the shape of the box (`C144_corner_violated`).
- C147: one `background-size` is taken for both sides, a size of 0 fills the box, one `background-position` is not centred in the other axis and percentages and words are 0 (`C147_one_violated`, `C147_empty_violated`, `C147_centre_violated`).
- C102: `10PX` and `100dvh` are no lengths, a bare `0` is a time, an angle and a flexible length, an unknown type such as `<resolution>` takes `red` (`C102_whole_type_violated_case`, `…_viewport`, `C102_only_type_violated_zero`, `…_unknown`).

## Axioms

`#print axioms` on every theorem in `MANIFEST.json` reports a subset of `propext`, `Classical.choice`, `Quot.sound`. No `sorry`, no `native_decide`, no `bv_decide`. `decide +kernel` is used for concrete witnesses; it is evaluated by the kernel.
