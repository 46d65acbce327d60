{"id": "C01", "title": "RPC messages survive the control pipe unchanged", "statement": "Any sequence of int32, int64 and wide-string fields that one side writes into an RPC packet is read back by the other side, in order, with identical values, and the reader is exactly at end-of-packet afterwards.", "quantifier": "every finite sequence of fields, every 32/64-bit value, every UTF-16 string including embedded NULs and lone surrogates", "why_tests_cant": "The value domain and field sequences are unbounded; tests sample a few messages.", "anchors": ["src/shared/Buffer.h: WriteBuffer, ReadBuffer, replaceRawValue", "src/shared/Buffer.cc: putRawData, getRawData, putWString, getWString, getInt32, assertEof"]}
{"id": "C02", "title": "A malformed RPC packet is rejected, never misread", "statement": "Reading a field whose type tag does not match, or whose bytes are not all present, raises a decode error; a successful read consumes only bytes inside the packet, and every accepted packet is exactly one the writer could have produced (the encoding is canonical). A packet with left-over bytes is rejected by the end-of-packet check.", "quantifier": "every byte sequence and every sequence of typed reads", "why_tests_cant": "The attacker/bug-controlled input space is all byte strings.", "anchors": ["src/shared/Buffer.cc: getRawData, getWString, READ_BUFFER_CHECK, assertEof", "src/shared/Buffer.h: DecodeError"]}
{"id": "C03", "title": "Control-pipe framing does not depend on how bytes arrive", "statement": "The agent handles the same packets in the same order however the operating system splits the client's byte stream into reads; it handles every complete packet and nothing else, keeps the incomplete rest, and never waits forever for a packet larger than its current read buffer.", "quantifier": "every byte stream and every way to split it into arriving chunks", "why_tests_cant": "Chunkings are exponential in stream length and timing dependent.", "anchors": ["src/agent/Agent.cc: pollControlPipe, handlePacket", "src/agent/NamedPipe.cc: setReadBufferSize, readToString, peek"]}
{"id": "C04", "title": "UTF-8 decoding accepts exactly well-formed UTF-8 and inverts encoding", "statement": "Encoding a Unicode scalar value then decoding returns it; decoding succeeds exactly on the unique shortest-form encoding of a scalar value (no overlong forms, surrogates or values above 10FFFF), and the lead byte predicts the length.", "quantifier": "every code point and every byte string", "why_tests_cant": "1.1 million code points and 2^32 four-byte strings; rejects must be exact.", "anchors": ["src/agent/UnicodeEncoding.h: encodeUtf8, decodeUtf8, utf8CharLength"]}
{"id": "C05", "title": "UTF-16 encoding and surrogate decoding are inverse", "statement": "Every code point up to 10FFFF is encoded as one or two UTF-16 units; a supplementary code point becomes a high/low surrogate pair from which the agent recovers exactly that code point; values above 10FFFF are refused.", "quantifier": "every code point, every pair of 16-bit units", "why_tests_cant": "Large domain with off-by-one prone arithmetic.", "anchors": ["src/agent/UnicodeEncoding.h: encodeUtf16, decodeSurrogatePair"]}
{"id": "C06", "title": "The key-sequence table behaves as a longest-prefix map", "statement": "After any sequence of registrations, looking up input yields the most recently registered key of the longest registered sequence that is a prefix of the input, reports its length, and reports 'incomplete' exactly when some registered sequence strictly extends the whole input.", "quantifier": "every sequence of registrations and every lookup string", "why_tests_cant": "The trie switches representation (8-slot to 256-slot nodes) depending on history.", "anchors": ["src/agent/InputMap.h: InputMap, Node, TinyBranch, Branch", "src/agent/InputMap.cc: set, lookupKey, getOrCreateChild"]}
{"id": "C07", "title": "Typed input is interpreted the same however it is chunked", "statement": "Writing bytes to the input pipe in any chunks produces the same sequence of console input events and the same pending bytes as writing them at once (with the console mode fixed and no escape timeout between).", "quantifier": "every byte string and every split of it", "why_tests_cant": "Splits inside escape sequences, UTF-8 characters, mouse and DSR reports are combinatorially many.", "anchors": ["src/agent/ConsoleInput.cc: writeInput, doWrite, scanInput, scanMouseInput, matchDsr, matchMouse*"]}
{"id": "C08", "title": "Input processing always makes progress and never over-reads", "statement": "Each scanning step either reports that the pending bytes are an incomplete sequence or consumes at least one and at most the available bytes; consequently processing any input terminates and each byte is consumed exactly once.", "quantifier": "every byte string and console mode", "why_tests_cant": "Needs all inputs including truncated or hostile sequences; a past release read past the end of a buffer here.", "anchors": ["src/agent/ConsoleInput.cc: doWrite, scanInput, scanMouseInput", "src/agent/InputMap.cc: lookupKey"]}
{"id": "C09", "title": "Text typed by the user reaches the console as exactly its characters", "statement": "Well-formed UTF-8 text free of control characters is delivered as key-down events whose characters, concatenated, are exactly the UTF-16 encoding of the text, in order and nothing else.", "quantifier": "every string of printable Unicode scalar values", "why_tests_cant": "Unbounded strings over all of Unicode.", "anchors": ["src/agent/ConsoleInput.cc: scanInput, appendUtf8Char, appendKeyPress, appendCPInputRecords", "src/agent/UnicodeEncoding.h"]}
{"id": "C10", "title": "Synthesised key presses leave no modifier stuck", "statement": "The events generated for any key press form a balanced nest: every modifier or key pressed down is released, in reverse order, each event's modifier state reflects exactly the modifiers currently down, and no modifier remains pressed afterwards.", "quantifier": "every virtual key, code point and modifier combination", "why_tests_cant": "All combinations of key/modifier/AltGr cases.", "anchors": ["src/agent/ConsoleInput.cc: appendKeyPress, appendInputRecord"]}
{"id": "C11", "title": "Device-status replies are swallowed, and at most one query is outstanding", "statement": "A well-formed cursor-position report from the terminal never appears as console input in any chunking; the agent sends a status query only when an escape prefix is pending and none is outstanding, and a reply clears that state.", "quantifier": "every interleaving of input, replies and polls", "why_tests_cant": "Depends on the history of queries, replies and timeouts.", "anchors": ["src/agent/ConsoleInput.cc: writeInput, matchDsr, scanInput, flushIncompleteEscapeCode", "src/agent/Agent.cc: sendDsr"]}
{"id": "C12", "title": "An incomplete escape sequence is released after the timeout", "statement": "If bytes remain pending for over a second, the next poll turns all of them into console input and empties the pending queue; before that they are kept, and complete input is never delayed.", "quantifier": "every pending byte sequence, every time of arrival", "why_tests_cant": "Timing and history dependent.", "anchors": ["src/agent/ConsoleInput.cc: flushIncompleteEscapeCode, writeInput, doWrite", "src/agent/Agent.cc: onPollTimeout"]}
{"id": "C13", "title": "Mouse events are confined to the visible window and only sent when wanted", "statement": "Every mouse record has coordinates inside the current visible window rectangle; mouse escape sequences produce records only when the console is in mouse-input mode without quick-edit, and are otherwise discarded without being typed as text.", "quantifier": "every mouse sequence, coordinates and window rectangle", "why_tests_cant": "Coordinates are arbitrary integers and window rectangles vary.", "anchors": ["src/agent/ConsoleInput.cc: scanMouseInput, matchMouse1006, matchMouse1015, matchMouseDefault, setMouseWindowRect"]}
{"id": "C14", "title": "Mouse button state is tracked faithfully", "statement": "After any sequence of mouse reports the button state in the delivered records is exactly the set of buttons pressed and not yet released; a double click is reported only for a second press of the same button at the same position within the system's double-click time.", "quantifier": "every sequence of mouse reports and times", "why_tests_cant": "Depends on arbitrary report histories.", "anchors": ["src/agent/ConsoleInput.cc: scanMouseInput, DoubleClickDetection", "src/agent/ConsoleInput.h"]}
{"id": "C15", "title": "VT-input re-encoding is understood as the same key", "statement": "When the console requests VT input, each navigation/function key press is delivered as the xterm escape sequence that the agent's own key table maps back to the same key and modifiers. Shift-Tab is delivered as ESC [ Z.", "quantifier": "every recognised key and modifier combination", "why_tests_cant": "Needs all keys x modifiers, against a table of thousands of entries.", "anchors": ["src/agent/ConsoleInputReencoding.cc: reencodeEscapedKeyPress", "src/agent/DefaultInputMap.cc"]}
{"id": "C16", "title": "No visible change to a console line is missed", "statement": "If change detection reports 'unchanged' then the line's visible cells equal those last recorded (treating cells beyond a shorter line as blank), so skipping the redraw loses nothing; if it reports 'changed' the record becomes the new line.", "quantifier": "every history of lines, widths, blanks and resets", "why_tests_cant": "State carries obscured content from wider lines; depends on resize history.", "anchors": ["src/agent/ConsoleLine.cc: detectChangeAndSetLine, setLine, blank, reset"]}
{"id": "C17", "title": "A sent line is what the terminal shows", "statement": "Interpreting the output byte stream with a standard VT emulator, after any history every console line sent since the screen was last cleared is shown in the row of its line number exactly as the console has it (trailing blanks erased), also after scrolling; sending a line changes no other row. Lines consist of printable characters that are as wide in the terminal as in the console.", "quantifier": "every history of sent lines, cursor moves, hides and shows", "why_tests_cant": "Output is differential: correctness depends on all earlier output.", "anchors": ["src/agent/Terminal.cc: sendLine, moveTerminalToLine, hideTerminalCursor"]}
{"id": "C18", "title": "The agent's idea of the cursor position matches the terminal", "statement": "Interpreting the output byte stream with a standard VT emulator, after every operation the emulator's cursor row and column equal the requested position, for cursor placement and for line output. (Same lines as in C17.)", "quantifier": "every sequence of terminal operations", "why_tests_cant": "The position is tracked incrementally over unbounded history.", "anchors": ["src/agent/Terminal.cc: showTerminalCursor, moveTerminalToLine, sendLine, reset"]}
{"id": "C19", "title": "Console cell contents cannot inject escape sequences", "statement": "The only escape characters in the output are those of the sequences the agent itself generates: an ESC in a console cell is shown as '?'. In plain mode without colour, no operation other than an explicit title write emits an ESC at all.", "quantifier": "every cell contents and operation history", "why_tests_cant": "All 16-bit cell values and surrogate combinations.", "anchors": ["src/agent/Terminal.cc: fixSpecialCharacters, scanUnicodeScalarValue, sendLine, hideTerminalCursor"]}
{"id": "C20", "title": "Output is well-formed UTF-8 even for broken cell data", "statement": "Whatever UTF-16 data the console cells contain (including unpaired surrogates), the text emitted for a line is well-formed UTF-8, and every cell of the line is consumed exactly once.", "quantifier": "every cell array", "why_tests_cant": "All combinations of surrogates and double-width flags.", "anchors": ["src/agent/Terminal.cc: scanUnicodeScalarValue, sendLine", "src/agent/UnicodeEncoding.h: encodeUtf8"]}
{"id": "C21", "title": "Colours are rendered as the console's attributes", "statement": "Interpreting the emitted SGR parameters from any previous graphic state yields the foreground/background the attribute word asks for (black/white intensity conventions included), reverse video and underline; trimmed cells are visually blank. Reverse video and underline are shown exactly where the console itself honours them, whatever its output code page and mode.", "quantifier": "all 65536 attribute words and any earlier attribute", "why_tests_cant": "Cross product of previous and new attributes.", "anchors": ["src/agent/Terminal.cc: outputSetColor, outputSetColorSgrParams, sendLine", "src/agent/Scraper.cc: attributesMask"]}
{"id": "C22", "title": "Terminal mouse mode is switched on and off in matched pairs", "statement": "The agent emits the mouse-enable sequence only when currently disabled and vice versa, so after any request sequence the terminal's mouse mode equals the last request, and it is disabled when output pipes are being closed.", "quantifier": "every sequence of enable/disable requests and shutdown", "why_tests_cant": "History dependent.", "anchors": ["src/agent/Terminal.cc: enableMouseMode", "src/agent/Agent.cc: onPollTimeout, scrapeBuffers", "src/agent/ConsoleInput.cc: shouldActivateTerminalMouse"]}
{"id": "C23", "title": "Cursor visibility shown by the terminal matches the console", "statement": "After any history of terminal operations, a terminal that interprets show/hide-cursor sequences displays the cursor exactly when the agent last placed it visibly.", "quantifier": "every sequence of reset/hide/show/sendLine operations", "why_tests_cant": "History dependent, including screen resets.", "anchors": ["src/agent/Terminal.cc: reset, hideTerminalCursor, showTerminalCursor"]}
{"id": "C24", "title": "Large screen reads are complete and correctly placed", "statement": "Reading a rectangle in several OS-limited chunks gives exactly the cells one big read would give: every cell of the rectangle at its own coordinates and none from outside.", "quantifier": "every rectangle within limits and every cell addressed", "why_tests_cant": "All rectangle sizes; chunk arithmetic has off-by-one risks.", "anchors": ["src/agent/LargeConsoleRead.cc: largeConsoleRead", "src/agent/LargeConsoleRead.h: LargeConsoleReadBuffer::lineData"]}
{"id": "C25", "title": "Scrollback is transferred exactly once and in order", "statement": "While the console scrolls, each console line is sent to the terminal under a stable increasing line number: the mapping from buffer rows to line numbers never moves a line to another number, line numbers never skip and no line is transferred twice as a new line.", "quantifier": "every history of console writes/scrolls between polls, and of resizes of the terminal", "why_tests_cant": "Depends on unbounded console histories and polling schedules.", "anchors": ["src/agent/Scraper.cc: scrapeBuffer, scrollingScrapeOutput, syncMarkerText, findSyncMarker, createSyncMarker, scanForDirtyLines, markEntireWindowDirty"]}
{"id": "C26", "title": "Sync markers are found where they were placed and stay in range", "statement": "A marker written at a row is found at exactly the row it has scrolled to, provided it is still in the buffer and no other line imitates it; marker rows and reads never leave the buffer; successive markers have different text.", "quantifier": "every marker counter, row and buffer content", "why_tests_cant": "All row positions and 2^32 counters.", "anchors": ["src/agent/Scraper.cc: createSyncMarker, findSyncMarker, syncMarkerText, clearBufferLines, resetConsoleTracking"]}
{"id": "C27", "title": "Requested sizes are clamped to what the agent supports", "statement": "Whatever size is requested at open or resize, the scraper works with columns in 1..2500 and rows in 1..2000; a request with a non-positive dimension is ignored or rejected.", "quantifier": "every pair of integers", "why_tests_cant": "All integer pairs including negatives and overflows.", "anchors": ["src/agent/Scraper.cc: Scraper::Scraper, resizeWindow", "src/agent/Agent.cc: handleSetSizePacket, resizeWindow", "src/libwinpty/winpty.cc: winpty_config_set_initial_size, winpty_set_size"]}
{"id": "C28", "title": "Data pipes neither lose, duplicate nor reorder bytes", "statement": "For every pipe and every schedule of partial I/O completions, the bytes the OS has been given followed by those still queued are exactly the bytes written; bytes read by the agent followed by those still buffered are exactly the bytes received.", "quantifier": "every schedule of writes, completions, reads, partial sizes and closes", "why_tests_cant": "Asynchronous I/O completion orders cannot be enumerated.", "anchors": ["src/agent/NamedPipe.cc: IoWorker, InputWorker, OutputWorker, serviceIo, write, read, peek, bytesToSend"]}
{"id": "C29", "title": "Pipe read buffering is bounded", "statement": "The agent never starts an OS read while it already holds at least the configured amount of unconsumed data, so unread client data held by the agent is bounded by the read-buffer size plus one kernel read.", "quantifier": "every schedule", "why_tests_cant": "Schedule dependent.", "anchors": ["src/agent/NamedPipe.cc: InputWorker::shouldIssueIo"]}
{"id": "C30", "title": "Output is flushed before the session closes", "statement": "On automatic shutdown after the child exits, the agent performs one final scrape, and closes an output pipe only when a client has connected to it and every byte written to it has been delivered; after the final scrape nothing more is scraped and no title is written (only a client's own resize request or input can still cause output); a drained pipe is closed at once, and the agent exits by itself exactly when it was asked to and both output pipes are closed.", "quantifier": "every schedule of polls, pipe completions and child exit", "why_tests_cant": "Race between child exit, polling and client reads.", "anchors": ["src/agent/Agent.cc: onPollTimeout, autoClosePipesForShutdown, scrapeBuffers, pollControlPipe"]}
{"id": "C31", "title": "Closing the control pipe tears the session down", "statement": "Once the client closes the control pipe the agent stops: after the next control-pipe event it leaves the event loop and handles no further packet.", "quantifier": "every event schedule", "why_tests_cant": "Event-order dependent.", "anchors": ["src/agent/Agent.cc: pollControlPipe, onPipeIo", "src/agent/EventLoop.cc: run, shutdown"]}
{"id": "C32", "title": "After a failed RPC the session is latched broken", "statement": "If an RPC fails for any reason the control connection is closed and every later call on the same session fails without sending anything; a completed RPC (including a refused process creation) leaves the connection usable. So request/reply pairing is never off by one.", "quantifier": "every sequence of API calls and every transport/agent behaviour", "why_tests_cant": "Fault point x call history.", "anchors": ["src/libwinpty/winpty.cc: RpcOperation, writePacket, readPacket, readAll, handlePendingIo"]}
{"id": "C33", "title": "Library calls report errors consistently", "statement": "Every call that can fail sets the error out-parameter exactly when it fails, zeroes/NULLs its output parameters on failure, and maps failures to the documented error codes; a failed call never leaves stale results.", "quantifier": "every call, every outcome of the underlying operations", "why_tests_cant": "All fault points.", "anchors": ["src/libwinpty/winpty.cc: API_TRY, API_CATCH, STATIC_ERROR, winpty_error_code, winpty_spawn, translateException"]}
{"id": "C34", "title": "Console process list query returns the first processCount IDs or a clean error", "statement": "For any number of attached processes the call returns their number and fills the caller's array with their IDs if it is large enough; if it is too small the call reports the actual count; it never writes beyond the promised size and leaves the session usable.", "quantifier": "every actual count and every caller buffer size", "why_tests_cant": "Boundary between counts; state-dependent.", "anchors": ["src/libwinpty/winpty.cc: winpty_get_console_process_list", "src/agent/Agent.cc: handleGetConsoleProcessListPacket", "src/include/winpty.h"]}
{"id": "C35", "title": "Environment blocks are copied whole", "statement": "The environment passed to a spawn config is copied up to and including its final double terminator and nothing beyond, and the child gets the same block; an absent (null) environment means inherit.", "quantifier": "every list of NAME=VALUE strings and any memory after the block", "why_tests_cant": "Unbounded blocks; over-read is only visible with adversarial memory.", "anchors": ["src/libwinpty/winpty.cc: wstringFromEnvBlock, winpty_spawn_config_new", "src/agent/Agent.cc: handleStartProcessPacket"]}
{"id": "C36", "title": "Command-line quoting is lossless", "statement": "The command line the adapter builds for a program and its arguments is parsed by the standard Windows argument rules back into exactly those arguments.", "quantifier": "every list of argument strings, with any mix of quotes, backslashes, spaces and empties", "why_tests_cant": "Quote/backslash interactions over unbounded strings.", "anchors": ["src/unix-adapter/main.cc: argvToCommandLine"]}
{"id": "C37", "title": "Adapter option parsing never touches the child's arguments", "statement": "Options are recognised only before the program name; everything from the program name on (or after '--') is passed to the child unchanged and in order; unknown options and a missing program are errors.", "quantifier": "every argv", "why_tests_cant": "Unbounded argument vectors.", "anchors": ["src/unix-adapter/main.cc: parseArguments"]}
{"id": "C38", "title": "Integer formatting is exact and within its buffer", "statement": "Every integer of every width formats to its canonical decimal (or hexadecimal) text, including the most negative value, within the fixed buffer, and parses back to the same value.", "quantifier": "every value of every integer type", "why_tests_cant": "2^64 values; buffer-size arithmetic.", "anchors": ["src/shared/StringBuilder.h: gdecOfInt, ghexOfInt, ValueString", "src/agent/Terminal.cc: outUInt"]}
{"id": "C39", "title": "Agent start-up parameters survive the command line", "statement": "The flags, mouse mode and size given to winpty_open are exactly the values the agent starts with. Of its other command lines, --version alone prints the version, a pipe name followed by --create-desktop makes a desktop for that pipe, and anything else gets the usage text.", "quantifier": "every configuration accepted by the setters", "why_tests_cant": "Whole 64-bit flag space and all sizes.", "anchors": ["src/libwinpty/winpty.cc: winpty_open, createAgentSession", "src/agent/main.cc: winpty_agent_main, winpty_atoi64"]}
{"id": "C40", "title": "Configuration setters validate and only change their own field", "statement": "Every sequence of setter calls with values in the documented ranges yields a config whose each field is the last value set (default otherwise); a value outside its range is never stored (the call ends the program with an assertion failure).", "quantifier": "every setter sequence", "why_tests_cant": "History dependent.", "anchors": ["src/libwinpty/winpty.cc: winpty_config_new, winpty_config_set_initial_size, winpty_config_set_mouse_mode, winpty_config_set_agent_timeout"]}
{"id": "C41", "title": "Named-pipe names never repeat", "statement": "Two pipe names generated by a process are different for every pair of calls less than 2^32 calls apart, whatever the clock and random source return; names made under different process ids always differ.", "quantifier": "every sequence of calls, clock values and random bytes", "why_tests_cant": "Collisions depend on clock/RNG and cannot be sampled.", "anchors": ["src/shared/GenRandom.cc: uniqueName, randomHexString"]}
{"id": "C42", "title": "Timeouts fail an RPC instead of hanging or corrupting it", "statement": "A pending transfer either completes, or is cancelled and reported as agent-died or timeout; it reports success only with the number of bytes actually transferred, and no transfer is left pending.", "quantifier": "every order of completion, agent death and timeout", "why_tests_cant": "Race between three events.", "anchors": ["src/libwinpty/winpty.cc: handlePendingIo, PendingIo, handleReadWriteErrors"]}
{"id": "C43", "title": "The adapter relays bytes unchanged in both directions", "statement": "The bytes written to the terminal are exactly those read from the session and vice versa, with retries after interrupted or short writes, until an end or error.", "quantifier": "every sequence of short reads/writes and interruptions", "why_tests_cant": "Schedule dependent.", "anchors": ["src/unix-adapter/Util.cc: writeAll", "src/unix-adapter/InputHandler.cc: threadProc", "src/unix-adapter/OutputHandler.cc: threadProc"]}
{"id": "C44", "title": "A shutdown request to an adapter thread is never lost", "statement": "In every interleaving of the input thread's reset-check-wait loop with another thread's set-flag-then-wake, the input thread notices the shutdown; wake-ups are not lost.", "quantifier": "every interleaving", "why_tests_cant": "Thread schedules cannot be enumerated.", "anchors": ["src/unix-adapter/InputHandler.cc: threadProc", "src/unix-adapter/InputHandler.h: startShutdown", "src/unix-adapter/WakeupFd.cc: set, reset"]}
{"id": "C45", "title": "Bounded string copies always terminate and never overflow", "statement": "The bounded wide-string copy writes exactly its buffer size, always leaves a terminator in the terminating variant, and copies the longest prefix that fits.", "quantifier": "every source string and buffer size", "why_tests_cant": "All lengths around the boundary.", "anchors": ["src/shared/StringUtil.cc: winpty_wcsncpy, winpty_wcsncpy_nul, winpty_wcsnlen"]}
{"id": "C46", "title": "Freezing the console is always undone", "statement": "Around any nested sequence of guarded operations the console's frozen state afterwards equals the state before, and freeze/unfreeze requests are sent only on actual changes.", "quantifier": "every nesting of freeze guards and operations", "why_tests_cant": "Unbounded nesting and exceptional exits.", "anchors": ["src/agent/Win32Console.h: FreezeGuard", "src/agent/Win32Console.cc: setFrozen"]}
{"id": "C47", "title": "Console rectangle operations are set operations", "statement": "Intersection, containment and line inclusion of screen rectangles agree with the sets of cells they denote, for all rectangles whose coordinates the console can produce.", "quantifier": "every pair of rectangles and coordinates in range", "why_tests_cant": "16-bit wrap-around corner cases.", "anchors": ["src/agent/SmallRect.h: SmallRect", "src/agent/Coord.h: Coord"]}
{"id": "C48", "title": "Font selection always yields a usable font", "statement": "For every set of candidate glyph sizes the chosen small font is one of the candidates at least as good as every other, and selection always reaches a decision.", "quantifier": "every width and every font table", "why_tests_cant": "Unbounded tables.", "anchors": ["src/agent/ConsoleFont.cc: selectSmallFont, setSmallFontVista"]}
{"id": "C49", "title": "Handles are closed exactly once", "statement": "For any sequence of construct/move/assign/dispose/destroy on owning handles, each OS handle acquired is closed exactly once and never used after closing.", "quantifier": "every program over owning handles", "why_tests_cant": "Ownership histories are unbounded.", "anchors": ["src/shared/OwnedHandle.h: OwnedHandle", "src/shared/OwnedHandle.cc: dispose"]}
{"id": "C50", "title": "Debug flags are matched as whole comma-separated words", "statement": "A debug feature is on exactly when its name is one of the comma-separated words of WINPTY_DEBUG.", "quantifier": "every environment value and flag name", "why_tests_cant": "Substring edge cases over all strings.", "anchors": ["src/shared/DebugClient.cc: hasDebugFlag"]}
{"id": "C51", "title": "The default key table is an unambiguous code and decodes xterm's keys", "statement": "Every key sequence the agent knows by default is recognised at its full length as its own key whatever follows it and without waiting for more input; no known sequence is a prefix of another; and each special key of xterm with each combination of Shift, Alt and Ctrl, and each key of PuTTY, the Linux console, rxvt, GNOME, Konsole, JediTerm and of the keypad in application mode, is decoded as that key with exactly those modifiers.", "quantifier": "every entry of the default table, every following input, every xterm special key and modifier combination", "why_tests_cant": "The table is generated (2676 sequences) and its meaning depends on absence of conflicts among all pairs and on all continuations.", "anchors": ["src/agent/DefaultInputMap.cc: addDefaultEntriesToInputMap", "src/agent/InputMap.cc: lookupKey"]}
{"id": "C52", "title": "Every item of terminal input means what it should and nothing else happens", "statement": "Whatever bytes the terminal sends, in whatever chunks, they are cut into items (Ctrl-C, cursor reports, mouse reports, known key sequences, UTF-8 characters possibly after ESC, invalid bytes), only the start of a further item stays pending, and the console events delivered are, in order, the meanings of the items: Ctrl-C an interrupt, a report nothing, a mouse report at most one mouse event, a key sequence a press of its key with its modifiers, a character key events typing it, invalid bytes nothing.", "quantifier": "every byte stream, chunking and earlier state of the input object", "why_tests_cant": "The claim is about all byte streams; unforeseen mixtures of protocols are exactly what tests miss.", "anchors": ["src/agent/ConsoleInput.cc: doWrite, scanInput, appendUtf8Char, appendKeyPress", "src/agent/InputMap.cc: lookupKey"]}
{"id": "C53", "title": "Control characters in console cells are shown, not executed", "statement": "A control character stored in a console cell never moves the terminal's cursor or otherwise acts on the terminal; it occupies one column like any other cell.", "quantifier": "every cell contents", "why_tests_cant": "All 16-bit values in all histories.", "anchors": ["src/agent/Terminal.cc: fixSpecialCharacters, sendLine"]}
{"id": "C54", "title": "The console title is read completely", "statement": "Whatever the length of the console's title, the size of the work buffer and the Windows version (truncated length on XP, byte/character confusion on Vista and 7, full length later), reading the title ends and returns the complete title, even if the title changes between attempts.", "quantifier": "every title history, buffer size and Windows version", "why_tests_cant": "All title lengths around the growing buffer size, on three incompatible OS behaviours, with concurrent changes.", "anchors": ["src/agent/Win32Console.cc: Win32Console::title"]}
{"id": "C55", "title": "The terminal's title follows the console's title, and a title is only ever a title", "statement": "Whenever the console title has changed at a poll, one title sequence with exactly the new title is written to the terminal (none when it has not changed, in plain mode, or after the output is closed), and whatever the title is, the terminal takes it as title text and nothing else.", "quantifier": "every console title", "why_tests_cant": "Titles are arbitrary text chosen by the program in the console, including control characters.", "anchors": ["src/agent/Agent.cc: syncConsoleTitle", "src/agent/Win32Console.cc: title"]}
{"id": "C56", "title": "A spawn request is carried out exactly as configured, and its outcome reported back exactly", "statement": "A successful or refused winpty_spawn has made the agent call CreateProcess exactly once, with exactly the program, command line, directory, environment block and desktop of the spawn configuration (an empty string meaning absent); the caller gets local copies of the handles asked for, or the CreateProcess error code, whatever the sizes of the pieces in which the reply arrives. A second spawn on a session that has a child is never carried out.", "quantifier": "every spawn configuration, every set of output parameters, every outcome of CreateProcess, every chunking of the reply", "why_tests_cant": "All strings and flag combinations, and every chunking of both messages.", "anchors": ["src/libwinpty/winpty.cc: winpty_spawn", "src/agent/Agent.cc: handleStartProcessPacket, writePacket"]}
{"id": "C57", "title": "winpty_spawn neither leaks nor doubly owns a handle", "statement": "Every handle winpty_spawn takes over from the agent is either given to the caller or closed again, exactly once, on every path including failures after the first handle was taken over.", "quantifier": "every reply of the agent, every failure of handle duplication, every combination of output parameters", "why_tests_cant": "Fault at each step x output combinations.", "anchors": ["src/libwinpty/winpty.cc: winpty_spawn, stealHandle", "src/shared/OwnedHandle.cc: OwnedHandle::dispose, release"]}
{"id": "C58", "title": "winpty_open talks only to the agent process it started", "statement": "No byte is read from or written to a control pipe before the process at its other end has been found to be the process that was started last (or the system has said that it cannot tell). A session that is returned is connected to that process; with any other client winpty_open fails.", "quantifier": "every configuration, every answer of the system at every call, every order of completion, death and timeout", "why_tests_cant": "An adversarial client can connect at any moment; all interleavings and failures count.", "anchors": ["src/libwinpty/winpty.cc: createAgentSession, connectControlPipe, verifyPipeClientPid, winpty_open"]}
{"id": "C59", "title": "winpty_open and winpty_free neither leak nor doubly close an object", "statement": "When winpty_open fails, every event, pipe, process, thread, window station and desktop it obtained has been closed exactly once. When it succeeds exactly the event, the control pipe and the process handle of the session are open, and winpty_free closes them.", "quantifier": "every configuration, a failure at every system call, every way the background desktop is made", "why_tests_cant": "A failure at each of about twenty system calls, times the three ways of making a desktop.", "anchors": ["src/libwinpty/winpty.cc: winpty_open, winpty_free, createAgentSession, setupBackgroundDesktop", "src/shared/BackgroundDesktop.cc: BackgroundDesktop, dispose", "src/shared/OwnedHandle.cc: dispose"]}
{"id": "C60", "title": "The background desktop is invisible to the caller", "statement": "When winpty_open returns, the window station of the process is the one it was, whatever the result; the agent runs on the background desktop when there is one, which stays open until the agent has connected; and child processes will be started on the caller's desktop, not the background one. On Windows 7 and later, without debugging flags, no background desktop is made: one process is started and the window station is never touched.", "quantifier": "every configuration, every combination of debugging flags, a failure at every system call", "why_tests_cant": "Failures between setting and restoring global process state.", "anchors": ["src/libwinpty/winpty.cc: winpty_open, setupBackgroundDesktop, shouldCreateBackgroundDesktop, shouldSpecifyHideFlag", "src/shared/BackgroundDesktop.cc: BackgroundDesktop, dispose, getCurrentDesktopName"]}
{"id": "C61", "title": "What winpty_open returns", "statement": "winpty_open returns a session and no error, or NULL and one of the documented error codes (the agent's program missing, not started, died, timed out are told apart). The names of the session are exactly the strings the agent sent (a CONERR name exactly if asked for), the timeout is the configured one, and the agent was started with exactly the configured flags, mouse mode and size on the session's own control pipe. If the agent starts, connects and sends its names, in whatever pieces, winpty_open succeeds.", "quantifier": "every configuration, every answer of the system, every chunking of the agent's packet", "why_tests_cant": "All failures and all chunkings.", "anchors": ["src/libwinpty/winpty.cc: winpty_open, startAgentProcess, winpty_conin_name, winpty_conout_name, winpty_conerr_name", "src/agent/Agent.cc: Agent::Agent", "src/libwinpty/AgentLocation.cc: findAgentProgram"]}
{"id": "C62", "title": "Plain output stays plain for a whole session", "statement": "If the session was opened with plain output, then over its whole life everything written to the output pipe and to the separate error pipe consists of whole UTF-8 encoded characters other than ESC and, only if colour escapes were asked for, of colour-selection sequences: no titles, no cursor-position queries, no mouse modes, no cursor movement, no clearing. In every mode the error pipe carries no titles, queries or mouse modes, and each write to an output pipe is made of whole characters and whole sequences of the agent's own repertoire.", "quantifier": "all configurations, all console contents and titles, all interleavings of input, requests, polls and pipe traffic, all lengths of session", "why_tests_cant": "Several independent sources write to the output pipe (screen contents, resizing, titles, mouse mode, status queries), triggered by input, by the program and by timers; tests would have to try every combination and order.", "anchors": ["src/agent/Agent.cc: Agent::sendDsr, Agent::syncConsoleTitle, Agent::onPollTimeout", "src/agent/Terminal.cc: Terminal", "src/include/winpty_constants.h: WINPTY_FLAG_PLAIN_OUTPUT, WINPTY_FLAG_COLOR_ESCAPES"]}
{"id": "C63", "title": "A resize of the terminal always reaches the session", "statement": "Whenever the terminal's size changes while the adapter runs, the session is told the new size: as soon as the adapter is waiting and no signal is outstanding, the size the session was told last is the size the terminal has now. The session is only ever told a size the terminal has had, or 80x25 if the terminal could not be asked when the adapter started.", "quantifier": "every interleaving of resizes, signal delivery, the adapter's threads and the session's output", "why_tests_cant": "The signal may arrive at any instruction of any thread, and wake-ups coalesce; a lost resize shows only for particular schedules.", "anchors": ["src/unix-adapter/main.cc: terminalResized, registerResizeSignalHandler, main", "src/unix-adapter/WakeupFd.cc: set, reset"]}
{"id": "C64", "title": "The adapter's exit: everything relayed, session closed, program's exit code", "statement": "When the adapter restores the terminal before it exits, it has closed the session, none of its relay threads is running any more, and every byte the session had delivered is on the terminal unless the terminal refused it. The exit code is the one the program returned, or 1 if something failed.", "quantifier": "every interleaving of the adapter's threads, every sequence of answers of the operating system", "why_tests_cant": "Depends on the order in which the threads notice the end.", "anchors": ["src/unix-adapter/main.cc: main", "src/unix-adapter/InputHandler.cc: InputHandler::threadProc", "src/unix-adapter/OutputHandler.cc: OutputHandler::threadProc"]}
{"id": "C65", "title": "The user's terminal is put into raw mode and put back exactly", "statement": "When the adapter starts, the terminal it reads from passes on every key at once and unchanged and no key makes a signal, and a terminal it writes to passes on every byte unchanged; nothing else about those terminals changes and no other terminal is touched. When the adapter ends, each terminal has exactly the mode it had before, whatever happened to it meanwhile. If a stream is not a terminal and must be, the adapter exits without having changed any terminal.", "quantifier": "every assignment of the three standard streams to terminals (several may share one), every mode, every choice of streams, every failure of a call", "why_tests_cant": "The order of saving and changing matters only when streams share a terminal, and the modes and failures cannot be enumerated on a real terminal.", "anchors": ["src/unix-adapter/main.cc: setRawTerminalMode, restoreTerminalMode"]}
{"id": "C66", "title": "The adapter runs the first matching program of the PATH", "statement": "A program given by a plain name is looked for in the entries of PATH in order; an empty entry is the current directory. The first entry in which the name resolves to a file the user may run counts. A file that Windows cannot run directly is never chosen: if the resolved name has none of the extensions .bat, .cmd, .com, .exe in any case, the file with .exe appended must exist. It is reported as missing exactly if no entry has one. A name with a slash or backslash is not looked for in PATH.", "quantifier": "every PATH, every program name, every file system", "why_tests_cant": "PATH strings and file systems are unbounded.", "anchors": ["src/unix-adapter/main.cc: findProgram, endsWith, resolvePath, convertPosixPathToWin"]}
{"id": "C67", "title": "The environment and error messages the adapter produces", "statement": "The agent and the program get the user's environment as Cygwin translates it, except that TERM is removed and a non-empty debug setting of the user's is passed on. When the program cannot be started, the system's message is shown without trailing blanks and line ends, and always with the error's number.", "quantifier": "every environment, every message", "why_tests_cant": "Environments and messages are unbounded.", "anchors": ["src/unix-adapter/main.cc: setupWin32Environment, errorMessageToString, formatErrorMessage"]}
{"id": "C68", "title": "A resize gives the console the size asked for and keeps the cursor visible", "statement": "At start-up the agent makes the console a blank buffer of 3000 rows and the requested width, with the window of the requested size (limited by the monitor) at its top and the cursor in the corner. On winpty_set_size the window gets the requested size (limited by the monitor) inside of the buffer, the buffer the requested width (or, for terminals narrower than the console permits, the narrowest permitted width up to 20 columns) and keeps its scrollback, or has none if it had none; every intermediate request is one the console can grant; a window that shows the cursor's row keeps showing it; the last line the agent has seen written stays in the window unless the cursor forces it out; and the scraper's idea of the window's position is the console's.", "quantifier": "every console (sizes, window and cursor position), every requested size, every monitor limit and minimum width, and everything programs write between the steps while the console is not frozen, as long as they do not change its sizes themselves", "why_tests_cant": "The final size is the result of three requests whose validity depends on the sizes before, on the monitor, on the font and on what programs do meanwhile; tests see one console.", "anchors": ["src/agent/Scraper.cc: Scraper::Scraper, resizeImpl, cursorInWindow", "src/agent/Win32ConsoleBuffer.cc: resizeBufferRange, moveWindow, clearLines, setCursorPosition", "src/agent/SmallRect.h: ensureLineIncluded"]}
{"id": "C69", "title": "When a program changes the buffer's height, the terminal shows the console's window", "statement": "When a program gives the console's buffer another height than the 3000 lines the agent has set up, the terminal is cleared and from then on shows the part of the console's window that fits into it, row by row from the top, with the cursor where the console shows it in that part and hidden otherwise. A poll sends rows from the top downward, each at most once, and only rows that have changed; it reads only what is inside the buffer. It never fails, and neither does the return: when the buffer has 3000 lines again, the terminal is cleared once and shows the console's lines from the window's top line on. No row the window does not have is shown.", "quantifier": "every history of polls and resizes, whatever programs do to the console in between (contents, window, cursor, height of the buffer), with and without freezing the console", "why_tests_cant": "The result depends on everything that was sent before and on the sizes of the window, the buffer and the terminal at each moment; tests see a few consoles.", "anchors": ["src/agent/Scraper.cc: syncConsoleContentAndSize, directScrapeOutput, resizeImpl, resetConsoleTracking", "src/agent/ConsoleLine.cc: detectChangeAndSetLine, reset"]}
{"id": "C70", "title": "Only the owner, administrators and the system can use winpty's pipes", "statement": "The control pipe that winpty_open creates and the pipes for the console's input and output can be opened, read, written, or have their access rights changed by nobody but the user who created them (the impersonated one, if any), members of the Administrators group and the system, and these can use them without restriction. Each pipe has one instance, is never created on top of a pipe somebody else has created under that name, and (from Windows Vista on) cannot be reached from another machine; data flows only in the direction the pipe is for. If the descriptor cannot be made, no pipe is created. The debug server with --everyone lets everyone read and write its pipe but not create instances of it, delete it or change its access rights.", "quantifier": "every user and group membership of the one who asks, every access right, every owner, every version of Windows, every failing system call", "why_tests_cant": "A test runs as one user; the claim is about all others, and about a descriptor whose effect depends on how Windows evaluates it.", "anchors": ["src/shared/WindowsSecurity.cc", "src/libwinpty/winpty.cc: createControlPipe", "src/agent/NamedPipe.cc: openServerPipe", "src/debugserver/DebugServer.cc: main", "src/shared/WindowsVersion.cc: isAtLeastWindowsVista"]}
{"id": "C71", "title": "Tracing does not disturb the program, and messages arrive whole", "statement": "Turning on tracing changes nothing for the program: after trace (and the functions it uses) the thread's last error is what it was before; the debug configuration is the same in all threads, even if several ask for it at once or the environment changes, and no memory is lost. A message is cut off at 1023 characters and always terminated, whichever C library does the printing; the debug server prints each message it is sent as one line, whole, in the order of arrival.", "quantifier": "every text, every behaviour of the C library on too long a text, every interleaving of threads, every effect of system calls on the last error, every list of messages", "why_tests_cant": "The claims are about all interleavings and about C libraries that differ in what they do when a text does not fit.", "anchors": ["src/shared/DebugClient.cc: getDebugConfig, isTracingEnabled, hasDebugFlag, trace, PreserveLastError", "src/shared/winpty_snprintf.h: winpty_vsnprintf", "src/debugserver/DebugServer.cc: main"]}
{"id": "C72", "title": "An idle console writes nothing", "statement": "The agent looks at the console every 25 milliseconds. If what it finds is what it found the time before (buffer size, window, cursor, the window's cells and the row above), and no lines have scrolled out in between, then it sends no line again, does not clear the terminal, and writes not a single byte to the output pipe, whatever happened earlier in the session; both for an ordinary console and when a program has given the buffer another height.", "quantifier": "every history of polls, resizes and changes of the console; every contents of the console; every state of the terminal", "why_tests_cant": "What a poll sends depends on markers, line counters and a buffer of past lines that the whole history has shaped; a test sees a few histories.", "anchors": ["src/agent/Scraper.cc: scrapeBuffer, scrollingScrapeOutput, directScrapeOutput, scanForDirtyLines", "src/agent/Terminal.cc: showTerminalCursor, hideTerminalCursor, moveTerminalToLine"]}
{"id": "C73", "title": "The agent polls regularly and never sleeps through an event", "statement": "The agent looks at the console again and again, whatever the clients do: at least 25 ms lie between the end of one poll and the beginning of the next, and at most 25 ms more than the work of two turns of its loop and the system's delay in waking it. Continuous traffic on the pipes cannot put a poll off, and the wrap-around of the system's tick counter changes nothing. When the agent stops to wait, it is not about to exit, every pipe that can be connected, read from or has something to write has that operation in progress, its event is among those waited for (of which there are never too many), and the wait ends when the next poll is due.", "quantifier": "every start of the agent; every sequence of turns with arbitrary pipe completions and poll results; every sequence of clock readings; every bound on the time a turn takes and on the system's delay", "why_tests_cant": "The tick counter wraps after 49 days; a forgotten event only shows as a hang under a particular interleaving of completions.", "anchors": ["src/agent/EventLoop.cc: EventLoop::run", "src/agent/NamedPipe.cc: serviceIo, IoWorker::getWaitEvent", "src/agent/Agent.cc: Agent::Agent, onPollTimeout, onPipeIo"]}
{"id": "C74", "title": "What the client's terminal shows, end to end", "statement": "A terminal that reads what the client receives from the output pipe shows the console: for each line of the console that had to be transferred a row with the line's contents, the cursor in the row and column of the console's cursor (hidden if the console's is), the title the console had at the last poll, and the mouse modes on exactly if the mouse was wanted at the last poll and the child has not exited. Titles, status queries and mode changes that the agent writes between the lines of the screen never disturb the picture, in whatever order they come. Once nothing is left to send, or the agent has closed the pipe, the client has received all of it.", "quantifier": "every start of the agent not in plain mode; every sequence of turns of its event loop with arbitrary client traffic, packets, pipe completions and partial writes; every history of polls and resizes of the console; every terminal width and height, width table and initial screen contents", "why_tests_cant": "The picture is the result of interleaving four kinds of writes over an arbitrarily long history, and depends on the terminal's state at each point; a test sees a few interleavings.", "anchors": ["src/agent/Agent.cc: onPollTimeout, syncConsoleTitle, scrapeBuffers, sendDsr, resizeWindow, autoClosePipesForShutdown", "src/agent/Scraper.cc: Scraper::scrapeBuffer, resizeWindow", "src/agent/Terminal.cc: sendLine, reset, showTerminalCursor, enableMouseMode", "src/agent/NamedPipe.cc: write, serviceIo"]}
{"id": "C75", "title": "What the client types, end to end", "statement": "Every byte that arrives on the input pipe is handled, in order, and everything typed is understood: the bytes are cut into items (Ctrl-C, cursor position reports, mouse reports, key sequences, characters, bytes that are no character); the console receives exactly the events these mean; only the beginning of an item is held back, and after a second without input it is handled as it is. In particular text typed without a pause inside a character reaches a console that does not ask for VT input as key events that type exactly that text, on a keyboard where every key pressed is released again. The terminal is asked for its cursor position at most once more than it answers, and has been asked whenever something is held back; the console receives mouse events only while its mode asks for them and only inside the window the agent last saw; the terminal's mouse reports are on exactly if a poll has taken place, the mouse mode and the console's last mode ask for them, and the child has not exited; each resize after the first is reported to the console once.", "quantifier": "every start of the agent; every sequence of turns of its event loop with arbitrary chunking of the input, packets, pipe completions, clock readings, console modes and windows; every keyboard layout (for the order of key events: one that does not claim that Shift, Ctrl or Alt type a character)", "why_tests_cant": "Input arrives in arbitrary pieces interleaved with polls, mode changes, resizes and timeouts; the states in which a piece of an item waits are unboundedly many.", "anchors": ["src/agent/Agent.cc: pollConinPipe, onPollTimeout, resizeWindow, sendDsr", "src/agent/ConsoleInput.cc: ConsoleInput, writeInput, flushIncompleteEscapeCode, updateInputFlags, shouldActivateTerminalMouse, doWrite, scanInput", "src/agent/EventLoop.cc: EventLoop::run", "src/agent/NamedPipe.cc: readAllToString"]}
{"id": "C76", "title": "The dump of console input is complete and readable, and the console's mode is put back", "statement": "winpty-agent --show-input shows every event the console delivers, once and in order, up to and including the first Ctrl-D, and returns there (or when a read fails). From a line one can read off the event: two different events never give the same line, the words for control keys, buttons and kinds of mouse event are present exactly if their bit is set, and bits without a name are shown as a number. While it runs Ctrl-C and line editing are off and mouse events are on exactly if asked for; afterwards the console has the mode it had before (if the mouse was asked for and the old state of quick edit is not known, it is turned on). The options it knows are --with-mouse and --escape-input, in any order; it refuses any other.", "quantifier": "every event with any field values of its types; every sequence of reads of any size; every console mode and combination of options", "why_tests_cant": "That no two events look alike is a statement about all pairs of field values; the console's mode has 32 bits and the reads can be cut at any event.", "anchors": ["src/agent/DebugShowInput.cc: writeFlags, controlKeyStatePrefix, mouseEventToString, debugShowInput", "src/agent/InputMap.cc: getVirtualKeyString, InputMap::Key::toString"]}
{"id": "C77", "title": "The helper agent that makes the background desktop", "statement": "On systems where the console's window needs a desktop of its own and the caller has not asked to make it in its own process, winpty_open starts a helper agent. The helper sends exactly one packet, the name of the desktop it made, never more and never a part of another; it keeps the desktop until the library closes its end of the pipe, and then exits; it does not spin while it waits. winpty_open then starts the agent on the named desktop, returns a session with the agent's pipe names and remembers the caller's own desktop for the child. If the system refuses the desktop, winpty_open goes on on the caller's own desktop.", "quantifier": "every desktop name; every way the helper's pipe answers reads and writes (chunk sizes, delays, errors) over any number of turns of its event loop; every splitting of the two packets the library reads; every step at which the system refuses", "why_tests_cant": "The order of partial writes, arriving data and the closing of the pipe is up to the system, and any step of making a desktop can be refused.", "anchors": ["src/agent/AgentCreateDesktop.cc: CreateDesktopLoop, handleCreateDesktop", "src/agent/EventLoop.cc: EventLoop::run", "src/libwinpty/winpty.cc: setupBackgroundDesktop, winpty_open", "src/shared/BackgroundDesktop.cc: BackgroundDesktop"]}
{"id": "C78", "title": "The agent recognizes its Windows version and its kind of console", "statement": "The tests for Vista, Windows 7 and Windows 8 are true exactly on those and all later versions, also on later versions that claim to be Windows 8. On Windows 8 and later the agent finds out whether it has the new console of Windows 10 (on which it need not freeze the console to read it): it says so exactly if it has. The test works wherever the window is and whatever size it has, also if the window is a single cell. After the test the console is not frozen, will be frozen by 'select all' and not by 'mark', and its cursor is at the origin. Before Windows 8 nothing is done to the console.", "quantifier": "every version and what it may report; every buffer and window size, window and cursor position; every console that treats 'mark' in the old or in the new way", "why_tests_cant": "A test runs on one version of Windows with one console and one window; the combinations of kind of console, window geometry and minimum widths are not available to it.", "anchors": ["src/shared/WindowsVersion.cc: isAtLeastWindowsVista, isAtLeastWindows7, isAtLeastWindows8", "src/agent/Agent.cc: detectNewWindows10Console", "src/agent/Win32Console.cc: Win32Console::setFrozen"]}
{"id": "C79", "title": "The adapter's start: from the command line to the running program, or a full error message", "statement": "If the user asks the Unix adapter for a program with arguments, and the program is found and the session can be opened, then the session gets the size of the terminal (80 by 25 if it is not known), exactly the requested modes, and the program starts with exactly the requested words as its arguments, none lost or changed, in whatever letters they are written. If something fails, the adapter prints one complete message that names the cause (program not found, reason why the session cannot be opened, Windows' error number and text) and exits with the code 1, and no program is left running. Help, version and unknown options never start a session.", "quantifier": "every command line, every Unicode argument, every size of the terminal, every answer of the system at each step", "why_tests_cant": "The words, the sizes and the failures at each step combine without limit; a test tries a few words in one locale and cannot make each system call fail.", "anchors": ["src/unix-adapter/main.cc: main, usage, errorMessageToString, formatErrorMessage", "src/unix-adapter/main.cc: heapMbsToWcs, heapWcsToMbs, wcsToMbs"]}
{"id": "C80", "title": "The key viewer shows every byte typed and leaves the terminal as it was", "statement": "winpty --showkey prints each byte the terminal sends, none lost, added or moved: first in caret notation, then on a line with its decimal, octal and hexadecimal number. Typed control characters are never passed on to the terminal as such. Ctrl-D ends it. It opens no session and starts no program. At the end the terminal has the mode it had before, whatever happened in between; if the input is not a terminal, the viewer refuses and changes nothing.", "quantifier": "every sequence of bytes, every way in which the input is divided into reads, every initial terminal mode and connection of the standard streams, every placement of the options", "why_tests_cant": "How the keys are grouped into reads depends on timing; the bytes, modes and groupings are without limit.", "anchors": ["src/unix-adapter/main.cc: debugShowKey, parseArguments", "src/shared/UnixCtrlChars.h: decodeUnixCtrlChar"]}
{"id": "C81", "title": "Threads may use one session at the same time", "statement": "When several threads of a program call winpty_spawn, winpty_set_size and winpty_get_console_process_list on one session at the same time, the outcome is that of one thread making the same calls one after another: in the order of their returns, with the same results, the same bytes sent and received and the same state of the connection, also when a call fails and closes the connection. No two threads use the connection at once, so the request and the reply of a call are never mixed with those of another. Each thread's calls keep their order, a call that returns before another begins is before it, and no thread waits for ever for one that could not go on.", "quantifier": "any number of threads, any calls with any arguments, every interleaving of their steps, every sequence of answers of the system (successes, partial reads, errors, timeouts, the agent's death)", "why_tests_cant": "The interleavings of the threads' steps with the system's answers are without limit, and a test sees only the few its scheduler happens to take.", "anchors": ["src/libwinpty/winpty.cc: winpty_spawn, winpty_set_size, winpty_get_console_process_list, RpcOperation", "src/libwinpty/WinptyInternal.h: winpty_s::mutex", "src/shared/Mutex.h: Mutex, LockGuard"]}
{"id": "C82", "title": "Error objects are safe to use and to free, and say what went wrong", "statement": "A program that uses an error object only between the call that gave it and its winpty_error_free never makes the library use or free memory that is not its own. Until then the object keeps saying the same: the documented code and text of what went wrong in its call, or that memory ran out. Once every error has been freed nothing is left allocated, and a caller that passes no place for the error has nothing to free. A call always returns, also when memory runs out.", "quantifier": "every history of calls, failing in any way, and of uses of their errors, in any order; every choice of the allocations that fail", "why_tests_cant": "Every allocation can fail, at every point of every history; a test would have to make each of them fail, and a use of freed memory usually goes unnoticed.", "anchors": ["src/libwinpty/winpty.cc: winpty_error_code, winpty_error_msg, winpty_error_free, translateException, API_TRY, API_CATCH, kOutOfMemory, kBadRpcPacket, kUncaughtException", "src/libwinpty/WinptyInternal.h: winpty_error_s", "src/libwinpty/LibWinptyException.h: LibWinptyException"]}
{"id": "C83", "title": "The key table's memory is used safely and given back", "statement": "After any registrations the key table, as it is laid out in memory (pooled nodes, pointers, arrays and unions), answers lookups exactly as the longest-prefix map of C06; no registration or lookup follows a dangling pointer, reads an array element that was never written or lies outside, or the wrong member of a union. Objects made in the memory pool have different addresses, are never moved and keep their value until assigned to. Destroying the table destroys every object once and gives back every block once. The one other outcome is an abort when memory runs out.", "quantifier": "every history of registrations and every input; every history of making and assigning pool objects, for every block size; every choice of the allocations that fail", "why_tests_cant": "The representation changes with the number of children and the fill level of the pool's blocks; a test sees only some shapes, and a use of stale memory often gives the right answer.", "anchors": ["src/agent/SimplePool.h: SimplePool::alloc, clear, ~SimplePool", "src/agent/InputMap.h: Node, Branch, getChild", "src/agent/InputMap.cc: set, setHelper, getOrCreateChild, lookupKey"]}
{"id": "C84", "title": "Setting the console's font uses only what this Windows has", "statement": "Whichever of the font functions exist in this version of Windows and whatever they answer, setting a small font ends normally, calls only functions that exist and gives back every reference to the library. With the functions of Windows Vista the best font for the code page is asked for, then, if it is not granted and the code page is an East Asian one, the default font, and nothing else; with only those of Windows XP the wide enough fonts are asked for in the order of the sorted table until one is granted; with neither the font stays as it is. Tracing shows every font of the table once and in order, and does not change what is done to the console.", "quantifier": "every set of existing functions, every behaviour of the console, every number of columns from 1 to 32767, every font table", "why_tests_cant": "The combinations of missing functions and failing calls cannot be produced on one machine.", "anchors": ["src/agent/ConsoleFont.cc: XPFontAPI, UndocumentedXPFontAPI, VistaFontAPI, setSmallFont, setFontVista, setSmallFontVista, setSmallFontXP, readFontTable, dumpFontTable", "src/shared/OsModule.h: OsModule"]}
{"id": "C85", "title": "Security descriptors: everything is released once, and nothing too early", "statement": "Whichever calls of Windows fail while a security descriptor for a pipe is made, nothing is used or released that is not there, and nothing is released with the wrong function. If the descriptor is made, it and the access control list it points to stay valid until it is destroyed - so also while the pipe is created with it -, and its destructor then releases every SID, list, descriptor and object once, and nothing else. If a call fails, the exception leaves nothing behind, not even a handle of the token. When memory runs out, one block at most is lost.", "quantifier": "every choice of the calls of Windows and of the allocations that fail, every state of the memory before, every later state", "why_tests_cant": "The failures cannot be provoked one by one, and a use after free or a leak often has no visible effect.", "anchors": ["src/shared/WindowsSecurity.h: SecurityItem", "src/shared/WindowsSecurity.cc: localItem, allocatedSid, openSecurityTokenForQuery, getOwnerSid, wellKnownSid, finishSecurityDescriptor, createPipeSecurityDescriptorOwnerFullControl, createPipeSecurityDescriptorOwnerFullControlEveryoneWrite", "src/libwinpty/winpty.cc: createControlPipe", "src/agent/NamedPipe.cc: openServerPipe", "src/debugserver/DebugServer.cc: main"]}
{"id": "C86", "title": "The report about Windows", "statement": "With tracing off, asking for the report about Windows does nothing. With it on, whatever Windows answers, no function that does not exist is called and nothing is read that Windows has not filled. Every library loaded for the report is released and every buffer deleted, whether the report is made or not, and the version library is only loaded by its full name in the system directory, never from the current directory. If Windows says its version and there is memory, the report is made; it names Windows's numbers, the architecture, and for each of two libraries its version, that it is not there, or that there was an error. A version can be read back from its text.", "quantifier": "every answer of Windows, both architectures, tracing on or off, every version number", "why_tests_cant": "A test machine gives one set of answers; a missing function or a broken version resource cannot be provoked there.", "anchors": ["src/shared/WindowsVersion.cc: dumpWindowsVersion, getFixedFileInfo, getSystemDirectory, versionToString, getWindowsVersionInfo", "src/shared/OsModule.h: OsModule"]}
{"id": "C87", "title": "The dump of the key table is complete and readable", "statement": "The dump of the key table has exactly one line for each byte sequence that currently stands for a key, in the order of the bytes, and no other line; the line shows the sequence and the key. A line of a sequence without quotes can be read in one way only. In the dump of the agent's own table no two lines are alike and none is cut off by the trace.", "quantifier": "every sequence of registrations (any bytes, any keys, re-registrations, sequences that are prefixes of others)", "why_tests_cant": "The table is a tree whose nodes change their representation with the number of children; a test sees one table.", "anchors": ["src/agent/InputMap.cc: InputMap::dumpInputMap, InputMap::dumpInputMapHelper, InputMap::Key::toString", "src/shared/UnixCtrlChars.h: decodeUnixCtrlChar", "src/agent/ConsoleInput.cc: ConsoleInput::ConsoleInput"]}
{"id": "C88", "title": "Trace messages of many processes and threads: whole, once, and before the call returns", "statement": "With any number of processes and threads that trace at the same time and one debug server: each line that the server prints is the whole message of one call, and each call's message is printed at most once. It is printed before the call returns or never; when the server runs and nothing fails, no message is lost. A call opens at most one handle and has closed it when it returns; the server can identify the caller but not act in its place. Without a server no call waits, and with one every call returns, as long as the other processes go on. The time in a message is the system's, in milliseconds.", "quantifier": "every interleaving of the steps of any number of calls and of the server, including the server's start and end at any moment and failures of the functions of Windows; every system time from 1970 on", "why_tests_cant": "The pipe has one instance for which all processes compete; a test sees few of the interleavings, and not that the number of steps is bounded in all.", "anchors": ["src/shared/DebugClient.cc: sendToDebugServer, unixTimeMillis, trace", "src/debugserver/DebugServer.cc: main"]}
{"id": "C89", "title": "The agent's handles: none leaked, none closed twice, none inherited by mistake, and always the right screen", "statement": "However long a terminal is used - polls, resizes, programs that switch screen buffers, a child process that starts and ends, the client taking over handles - the agent's open handles are exactly the console's three, that of the screen buffer for errors if it was asked for, that of a child process not seen to end, those of its open pipes, and those it was asked for that the client has not taken yet: at most 11, or 9 without CONERR. It never closes anything but an open handle of its own. Each time the screen is read or resized it is the one that is active at that moment or, with CONERR, the console's first and that for errors, never the same twice. The child process inherits nothing without CONERR, and with it only the console's handles and that of the screen buffer for errors, where its errors go. When the agent has to end, it asks the console's window to close, waits at most 30 seconds and exits in any case.", "quantifier": "every sequence of polls, resizes, spawns, pipes closed, handles taken and screen buffers activated, with every success or failure of the functions of Windows and every way in which Windows numbers handles", "why_tests_cant": "A leak of one handle in a poll every 25 ms shows only after hours, and a handle closed twice only if its number is in use again.", "anchors": ["src/agent/Agent.cc: Agent, openPrimaryBuffer, scrapeBuffers, resizeWindow, onPollTimeout, handleStartProcessPacket, duplicateHandle", "src/agent/Win32ConsoleBuffer.cc: openStdout, openConout, createErrorBuffer", "src/agent/Win32ConsoleBuffer.h: ~Win32ConsoleBuffer", "src/shared/WinptyAssert.cc: agentShutdown, agentAssertFail"]}
{"id": "C90", "title": "Ctrl-C interrupts the programs in the terminal, each as it asked for, and never the agent", "statement": "Whatever the program that uses the library does with Ctrl-C, a program started in the terminal begins with the default: Ctrl-C ends it until it asks for something else. When Ctrl-C is typed and the console processes input, every program on the console - also those started by other programs - is interrupted as it asked for: ignored, its handler called, or ended. The agent survives any number of Ctrl-C, typed or made by programs, but when the console's window is closed, which is how the agent ends itself, it ends with all programs. Nothing else a program does to the console's processes ends the agent.", "quantifier": "every history of programs started by the agent and by programs, of changes of what they ignore and handle, of events made by them and of typed Ctrl-C; both settings inherited from the program that uses the library", "why_tests_cant": "What a process ignores is inherited through all its ancestors, and a test runs with one setting.", "anchors": ["src/agent/Agent.cc: consoleCtrlHandler, Agent, handleStartProcessPacket", "src/agent/ConsoleInput.cc: scanInput", "src/shared/WinptyAssert.cc: agentShutdown"]}
{"id": "C91", "title": "Arrow keys sent to the console's window are whole key presses", "statement": "When the console asked for VT input, arrows, Home and End without modifiers are sent to its window as messages. Whatever is typed, in whatever pieces, the messages are those of keys pressed once and then released, one after another, with the key, the keyboard's scan code (0 if it has none that fits) and the documented bits, and only of these six keys. A console that never asked for VT input gets no messages.", "quantifier": "every sequence of input written in any pieces, times, polls, console modes and windows; every keyboard layout and every answer of MapVirtualKey", "why_tests_cant": "The messages go to the window of a hidden console; a wrong bit shows only in programs that look at it, and a key left down after a rare sequence shows later.", "anchors": ["src/agent/ConsoleInput.cc: sendKeyMessage, appendKeyPress"]}
{"id": "C92", "title": "The agent that is started is the one beside the library", "statement": "winpty_open starts the program winpty-agent.exe in the directory of the library's own file, whatever the current directory, the search path or the directory of the program that uses the library, and looks for no other file. If that file does not exist, nothing is started and the call fails with the code for a missing agent and a message with the file's full name. Finding the agent never ends the calling program.", "quantifier": "every file name of the library and every answer about which files exist", "why_tests_cant": "A program found in another directory in rare circumstances is a security problem that a test with one installation does not see.", "anchors": ["src/libwinpty/AgentLocation.cc: findAgentProgram, getCurrentModule, getModuleFileName, dirname, pathExists"]}
{"id": "C93", "title": "The adapter's threads and handles: used only while they exist, joined and closed exactly once", "statement": "However the adapter's threads are scheduled: no handle, wake-up pipe or session is used before it is opened or after it is closed, and none is closed twice; every thread is joined exactly once, after it has ended, after the session was closed and, for the input thread, after it was asked to stop. As soon as one thread has ended the adapter closes the session without waiting for the others, and when it returns everything is joined and closed but the wake-up that the signal handler uses.", "quantifier": "every interleaving of the adapter's threads, with and without CONERR, and every call that can fail", "why_tests_cant": "A use after close or a join of a thread that cannot end happens only with a particular schedule.", "anchors": ["src/unix-adapter/main.cc: main", "src/unix-adapter/InputHandler.cc: InputHandler, shutdown", "src/unix-adapter/InputHandler.h: ~InputHandler, startShutdown", "src/unix-adapter/OutputHandler.cc: OutputHandler, shutdown", "src/unix-adapter/OutputHandler.h: ~OutputHandler", "src/unix-adapter/WakeupFd.cc: ~WakeupFd"]}
{"id": "C94", "title": "Memory lent to the operating system for a pipe's operations is left alone until the operation is over", "statement": "From the start of an overlapped connect, read or write of one of the agent's pipes until that operation is over, the agent neither looks at its buffer, record and event, nor uses them for another operation, nor frees them. Operations are started only on an open pipe; the pipe's handle is closed exactly once and only when no operation is running. When a pipe is closed or deleted, or one of its operations fails, whatever it was doing, the operating system has none of its memory any more; a closed or deleted pipe's memory is freed, once. A closed pipe can be connected for reading, writing or both, and has memory for just these directions.", "quantifier": "every sequence of calls of a pipe, every answer of the operating system and every moment at which it finishes an operation", "why_tests_cant": "A buffer freed while the operating system still writes to it corrupts memory only if the operation finishes at an unlucky moment.", "anchors": ["src/agent/NamedPipe.cc: serviceIo, IoWorker::service, waitForCanceledIo, openServerPipe, connectToServer, startPipeWorkers, closePipe", "src/agent/NamedPipe.h: ~NamedPipe, IoWorker"]}
