# Formal model of winpty in Lean 4 — design

This file says what is modelled, how each property is proved, and what is trusted.
Property ids refer to `properties.jsonl`; the status of each is in `MANIFEST.json`.

## Conventions of the model

* Bytes, UTF-16 units, code points, DWORDs and `int`s are `Nat`/`Int` with every C conversion
  that can truncate or wrap written out (`% 256`, `% 2^32`, ...).  A theorem that needs the C
  range of a value has it as an explicit hypothesis (`b < 256`).
* A function that mutates an object returns the new object.  A loop is structural recursion, or
  recursion with a proved measure.
* An `ASSERT`/`assert`/`abort`, an uncaught exception and an out-of-range access are distinct
  outcomes (constructors such as `.decodeError`, `.abort`, or `none`), never a default value.
* OS calls are parameters or environment events; what is assumed of them is recorded under
  "Trusted base".
* Every definition cites the file and lines of /repo it models.
* `Verif/Model/*.lean` is the model, `Verif/Spec/*.lean` the independent specifications,
  `Verif/Lemmas/*.lean` helper lemmas, and `Verif/Props/*.lean` the property theorems with
  non-vacuity examples.

## Plan per property

| id | what is modelled | how it is proved |
|----|------------------|------------------|
| C01 | WriteBuffer/ReadBuffer put*/get* on byte lists | round trip by induction over the field list |
| C02 | same, with `DecodeError` as an outcome | inversion: a successful read implies the consumed bytes are the writer's encoding |
| C03 | pollControlPipe loop over the input queue of NamedPipe | fold over chunks equals one-shot parse; induction on chunks |
| C04 | encodeUtf8/decodeUtf8/utf8CharLength | bit operations converted to div/mod arithmetic, omega |
| C05 | encodeUtf16/decodeSurrogatePair | arithmetic |
| C06 | the trie with TinyBranch/Branch nodes | refinement to a finite map `List Byte -> Option Key`, induction over registrations |
| C07, C08 | writeInput/doWrite/scanInput/scanMouseInput and matchers | prefix-stability of each matcher, then induction over the queue |
| C09 | appendUtf8Char/appendKeyPress/appendCPInputRecords | induction over the text using C04, C05 |
| C10 | appendKeyPress | event-nest invariant by case analysis over modifiers |
| C11, C12 | writeInput, DSR and flush state machine | invariant over event histories |
| C13, C14 | scanMouseInput | clamp lemma; refinement to an abstract button set over report histories |
| C15 | reencodeEscapedKeyPress + default input map tables | whole finite table by kernel evaluation |
| C16 | ConsoleLine | refinement: state denotes an infinite blank-extended line |
| C17, C18, C19, C20, C21 | Terminal with its output bytes | a separate VT emulator as specification; simulation relation by induction over operations |
| C22, C23 | enableMouseMode, cursor show/hide flags | invariant over histories; C23 is suspected false after reset (negation + partial) |
| C24 | largeConsoleRead | cell-wise equality |
| C25, C26 | Scraper line bookkeeping, sync markers against an abstract scrolling console | invariant over histories |
| C27 | clamps and checks along the resize path | arithmetic |
| C28, C29 | NamedPipe workers as a state machine driven by an OS schedule | invariant over schedules |
| C30, C31 | Agent poll/pipe event handlers | invariant over schedules |
| C32, C33, C34 | RpcOperation and the RPC calls over an arbitrary transport | invariant over call histories; C34 is suspected false (negation + partial) |
| C35 | wstringFromEnvBlock | list lemma against arbitrary trailing memory |
| C36 | argvToCommandLine; Microsoft C argument parser as specification | round trip by induction |
| C37 | parseArguments | induction over argv |
| C38, C39 | gdecOfInt/ghexOfInt/outUInt, winpty_open parameters and agent parsing | digit induction |
| C40 | config setters | fold over setter histories |
| C41 | uniqueName | injectivity of the process id/counter part |
| C42 | handlePendingIo | case analysis over event orders |
| C43, C44 | writeAll and relay loops; wake-up protocol interleavings | induction over schedules |
| C45 | winpty_wcsncpy(_nul) | list lemmas |
| C46 | setFrozen/FreezeGuard | structural induction over nested guarded programs |
| C47 | SmallRect/Coord | set extensionality |
| C48 | selectSmallFont | optimality over candidate lists |
| C49 | OwnedHandle | multiset invariant over programs |
| C50 | hasDebugFlag | substring/split equivalence |
| C51 | the 300-odd entries of DefaultInputMap | kernel evaluation of the whole table against independent tables of the keys of xterm and of other terminals |
| C52 | scanInput and everything under it | case analysis per item of an independent input grammar (Spec/XtermKeys, Spec/Console) |
| C53 | Terminal's treatment of control characters | C19's induction over the output alphabet (which control characters may occur), the emulator for what replaced ones look like; negation for line feed |
| C54 | getTitle's growing buffer | induction on the buffer size against a title of any length |
| C55 | syncConsoleTitle and the title escape | invariant over polls; the VT emulator reads the title back |
| C56 | spawn on both sides of the control pipe | composition of C01 with the agent's handler and the client's decoding |
| C57, C59 | handles in winpty_spawn, winpty_open, winpty_free | a log of system calls; `openAfter` follows which handles are open |
| C58, C60, C61 | winpty_open (Model/Open, and Model/ClientPid for the check of the client) with every system call's answer as a parameter | the log's shape by case analysis over the exits |
| C62 | the Agent's event handlers with the Terminal of C17 | invariant over event histories; grammar of plain output |
| C63, C64 | all threads of the adapter, its signal handler and wake-up pipes | a step relation; invariants and ranks over all interleavings; two defects by concrete runs |
| C65 | setRawTerminalMode, restoreTerminalMode, any assignment of descriptors to terminals | equations for the modes, induction over the descriptor lists; a defect |
| C66, C67 | findProgram, setupWin32Environment, error messages | the index loop equals a search over the entries |
| C68 | the console calls of Scraper's constructor and resizeImpl, resizeBufferRange | the console is an object that follows the API's documentation (Spec/ConsoleApi); arithmetic of the rectangles with 16-bit wrap-around, induction on the widths tried |
| C69 | directScrapeOutput, the changes of mode in syncConsoleContentAndSize and resizeImpl in direct mode | the histories of C25 (Spec/ScraperSession: History) also contain polls and resizes in direct mode and the return from it; one invariant per mode, preserved by every step |
| C70 | WindowsSecurity.cc (descriptors), the arguments of CreateNamedPipeW in libwinpty, the agent and the debug server | Windows' access check and SetEntriesInAcl as specification (Spec/Access); every system call's answer is a parameter |
| C71 | getDebugConfig's cache, PreserveLastError, trace's buffers, winpty_vsnprintf, the debug server's loop | invariant over interleavings of threads; list lemmas for every documented behaviour of vsnprintf; induction over messages |
| C72 | no new code: two consecutive polls of the histories of C25 and C69, composed with Terminal (C17, C18) | `Rest` (Lemmas/ScraperEmit): what every poll leaves behind, enough for the next one to find nothing to send; the cursor placed or hidden again leaves Terminal's state alone (Lemmas/TerminalIdle) |
| C73 | EventLoop.cc: the clock, what is waited for and how long; around the turns of Model/Agent | times are unbounded numbers, the tick count their remainder; invariant over timed runs (Spec/EventLoop: Run); a timed run is a run of the agent |
| C74 | the whole way of the output: Model/Scraper (what is asked), Model/Terminal (bytes), Model/Agent (titles, status queries and mouse modes in the same stream), Model/NamedPipe (delivery), Spec/Vt (the client's terminal) | invariant over the turns of the event loop: the terminal fed everything written equals, but for its title, the terminal fed only the terminal writer's bytes (Lemmas/ClientView: `Same`); the calls are read off the log (Spec/ClientView: `callsMade`) and are those of a history of polls (Spec/ScraperSession: `History`). The client's terminal keeps its size in the model; a resize is a clear followed by lines that fit |
| C75 | the whole way of the input: Model/AgentInput puts Model/Agent (the pipes, the event loop) and Model/ConsoleInput (the parser) together and records what passes to and from the console; `C75_session` shows that the agent part is that of Model/Agent | invariant over the turns of the event loop (Lemmas/AgentInputRun: `Good`); the record is that of a history of operations on `ConsoleInput` (Lemmas/AgentInput: `Replays`), so the theorems on single histories (C09, C10, C11, C13, C52) carry over; Spec/AgentInput says what a session in which everything is understood looks like (`Hears`). Simplification: of several resizes in one turn only the last window is given to `ConsoleInput`, since no input is handled in between |
| C76 | `--show-input`: Model/ShowInput (DebugShowInput.cc and `InputMap::Key::toString`), text as character codes; what the console answers is a parameter | injectivity of the line by cutting it at separators (Lemmas/ShowInput: `cut`, `tokens_after`, `tokens_before`), the words of `writeFlags` by a fold invariant, the modes bit by bit; **defect**: the key code 0 and the key of the digit 0 look alike |
| C77 | the helper agent that makes the background desktop: Model/CreateDesktop (AgentCreateDesktop.cc on the event loop of C73 and the pipe of C53), and the library's side from Model/Open | invariant over the turns of the loop (what is on the wire and queued is the packet; the pipe is open as long as the loop runs; `Lemmas/CreateDesktop`), then the reads of the two packets as in C61; **defects**: an agent that is sent 64 KiB and more is aborted (its input is never consumed; the library sends nothing), and when the helper is refused the desktop there is no falling back: it exits without connecting and winpty_open fails with `WINPTY_ERROR_AGENT_DIED`, although the `desktopName.empty()` test in the library expects a helper that sends an empty name |
| C78 | Model/Detect (the version tests and `detectNewWindows10Console`) on the console API of C68 and the messages of C28; what the window does with a message is a parameter | case analysis over the versions; the calls of the expansion one after the other with `Documented`; the messages sent by `setFrozen` are applied to the console |
| C79 | Model/AdapterMain (`main` from the arguments to the started child, the text conversions, the error messages), with the command line of C37, the search for the program of C66, the command-line quoting of C36 and the environment of C67 | composition of those theorems along `main`; the locale is a parameter that is UTF-8 by hypothesis; the ends of `main` by cases over the answers of the system |
| C80 | Model/ShowKey (`debugShowKey`, `decodeUnixCtrlChar`) on the terminal modes of C65 and the options of C37 | induction over the reads; a reader of the printed table (Spec/ShowKey) gives back the bytes; the 256 bytes are a finite type and are evaluated completely |
| C81 | Model/ClientThreads (the mutex, `RpcOperation` and the answers as separate steps of any number of threads, around the code of Model/Client) | invariant over the schedules; a call with one more answer goes on from where it stood (Lemmas/ClientThreads); the outcome is one of `InTurn` (Spec/ClientThreads), so what holds for a history of calls holds for threads |
| C82 | Model/ErrorObject (heap of error objects, shared pointers and strings with their owners; every allocation may fail) | invariant over all histories: the live blocks are exactly the three of each error not yet freed (Lemmas/ErrorObject). False when memory stays exhausted: `C82_out_of_memory_defect` |
| C83 | Model/KeyMemory (blocks from malloc with raw places, objects and destroyed objects; pointers; arrays with unwritten elements; union with its live member) | refinement: the pointer graph has one path to every node, and the keys along all paths are those of the tree of Model/InputMap (Lemmas/SimplePool, Lemmas/KeyMemory); pool by invariant over all histories |
| C84 | Model/FontApi (the whole of ConsoleFont.cc around the choice of C48: loading the library, pointers that may be null, every call) over an arbitrary console | a triple per function (`Does`: result, console, references, calls that change the font), composed along the code; induction over the font table |
| C85 | Model/SecurityMemory (the blocks behind SIDs, lists and descriptors, the objects that own them, unwinding; the three places that create a pipe with a descriptor) | a triple per function (`Does`: the blocks owned after it and after an exception), destructors as exact releases (`Frees`), composed along the code; the loss without memory by evaluation |
| C86 | Model/VersionReport (the report as code with exceptions, destructors, calls through looked-up pointers and reads of what Windows filled) | cases of each function with its effect on the libraries, buffers and the record (`Step`), composed along the code; the text against a separate description |
| C87 | Model/DumpInputMap (the recursion over the table with the text that is extended and put back) | well-founded induction over the tree: the text is restored, the entries are those of C06's table and sorted; reading a line byte by byte |
| C88 | Model/TraceSend (calls of `sendToDebugServer`, the server's loop and the instance of the pipe as a transition system) | invariant over all runs linking server, pipe, calls and output; a measure that each step makes smaller; absence of deadlock by cases |
| C89 | Model/AgentHandles (the table of handles with what each refers to; constructor, scrape, resize, poll, spawn, end) | invariant over all histories: the table is a permutation of the handles there is a reason for, values distinct, no bad close; consequences by counting |
| C90 | Model/CtrlEvents (processes on the console, what each ignores and handles, what Windows does with a control event) | invariant: the agent's settings after its constructor; by cases for each event |
| C91 | Model/CtrlEvents (`sendKeyMessage`) on Model/ConsoleInput | the fields of the parameter by arithmetic; invariant over all histories of input with the effects of each item |
| C92 | Model/AgentLocation (all of AgentLocation.cc), with `dirname` of Model/Open | by cases; `dirname` by induction on the name |
| C93 | Model/AdapterObjects (what `main`, the handlers' constructors, `shutdown`s and destructors open, start, join and close, interleaved with the threads) | invariant by induction over the schedule, which connects `main`'s place with the log of events |
| C94 | Model/PipeMemory (NamedPipe.cc as far as it makes, lends, looks at and frees memory), with the operating system's part interleaved | invariant by induction over the calls: what the log says is away is what `m_pending` and `m_connectEvent` say |

## Which parts of the code are modelled

Modelled (each definition cites its lines):

| source | model |
|--------|-------|
| src/shared/Buffer.{h,cc} | Model/Buffer |
| src/shared/StringBuilder.h, winpty_snprintf.h (the integer part) | Model/StringBuilder |
| src/shared/StringUtil.{h,cc} | Model/StringUtil |
| src/shared/OwnedHandle.{h,cc} | Model/OwnedHandle |
| src/shared/DebugClient.cc | Model/DebugClient (flags), Model/Trace, Model/TraceSend (sending, the time) |
| src/shared/winpty_snprintf.h, winpty_vsnprintf in StringUtil | Model/Trace |
| src/debugserver/DebugServer.cc | Model/Trace, Model/PipeSecurity, Model/TraceSend (its loop with the clients) |
| src/shared/WindowsSecurity.cc | Model/PipeSecurity (descriptors), Model/SecurityMemory (their memory), Model/Open (as steps of opening) |
| src/shared/BackgroundDesktop.cc | Model/Open |
| src/shared/GenRandom.cc (uniqueName) | Model/Startup, Model/Open |
| src/agent/UnicodeEncoding.h | Model/Unicode |
| src/agent/InputMap.cc, DefaultInputMap.cc | Model/InputMap, Model/DefaultInputMap |
| src/agent/ConsoleInput.cc, ConsoleInputReencoding.cc | Model/ConsoleInput, Model/CtrlEvents (key messages) |
| src/agent/ConsoleLine.cc | Model/ConsoleLine |
| src/agent/Terminal.cc | Model/Terminal |
| src/agent/LargeConsoleRead.cc | Model/LargeConsoleRead |
| src/agent/Scraper.cc | Model/Scraper, Model/ConsoleResize |
| src/agent/Win32ConsoleBuffer.{h,cc} | Model/Scraper, Model/ConsoleResize (sizes, clearing, writing), Model/AgentHandles (the handle) |
| src/agent/SmallRect.h, Coord.h | Model/SmallRect |
| src/agent/ConsoleFont.cc | Model/ConsoleFont (selection), Model/FontApi (the calls) |
| src/shared/OsModule.h | Model/FontApi, Model/VersionReport |
| src/shared/WindowsVersion.cc (the report) | Model/VersionReport |
| src/agent/Win32Console.cc (freezing, title) | Model/Win32Console |
| src/agent/NamedPipe.cc | Model/NamedPipe, Model/PipeMemory, Model/PipeSecurity (creation) |
| src/agent/EventLoop.cc | Model/Agent (a turn), Model/EventLoop (the loop and its clock) |
| src/agent/Agent.cc, main.cc (parameters) | Model/Agent, Model/AgentInput, Model/Framing, Model/Startup, Model/AgentHandles |
| src/shared/WinptyAssert.cc (the agent's end) | Model/AgentHandles |
| src/libwinpty/winpty.cc | Model/Client, Model/Open, Model/Startup |
| src/libwinpty/AgentLocation.cc | Model/AgentLocation |
| src/unix-adapter/*.cc, *.h | Model/Argv, Model/Adapter, Model/AdapterMain, Model/AdapterObjects, Model/TtyMode, Model/FindProgram |

Not modelled: the texts of trace messages, TimeMeasurement.h,
memory allocation failures (except where a
property is about them: C02, C82, C83, C85, C86), the C++ object lifetimes that no property mentions, and concurrency
inside the agent (it is single-threaded: one event loop).

## Trusted base

1. Lean 4.33.0's kernel, and the axioms `propext`, `Quot.sound` and `Classical.choice` of Lean itself;
   no axiom is added, and no proof uses `sorry`, `native_decide` or `bv_decide`.  Which theorem depends on
   which axioms is listed at the end.
2. That the model reads the code correctly.  Nothing of /repo was executed or compiled.
3. The specifications in `Verif/Spec`, in particular the terminal emulator of `Spec/Vt.lean` (how a
   terminal reacts to the sequences the agent emits) and the argument parser of `Spec/Argv.lean` (the
   documented rules of Microsoft's C runtime).
4. What is assumed of the operating system and of other programs, module by module:
   * *C++*: `char` values above 127 are negative and `isdigit` of them is 0 (strictly it is undefined);
     signed arithmetic that cannot overflow in the ranges given as hypotheses is not wrapped.
   * *CtrlEvents*: a new process inherits whether Ctrl-C is ignored and no handler; an event for the process group 0
     reaches every process on the console; an event that no handler handles ends the process, and the closing of
     the window does in any case.
   * *AgentHandles*: a new handle has a value that is not in use; the console's standard handles are inheritable
     and refer to its input and to its first screen buffer; `CONOUT$` is the screen buffer active at that moment;
     nobody else closes a handle of the agent, but the client those it was given.
   * *NamedPipe, Agent*: overlapped operations behave as documented: a completed operation reports how
     many bytes it transferred; a pending one is completed or fails at some time; the answers are
     otherwise arbitrary (see `Ans` and `osTakes`).  The scraper inside the Agent model is an arbitrary
     sequence of calls of the Terminal; ConsoleInput is represented by what the Agent asks of it;
     `utf8FromWide` is a parameter.
   * *EventLoop*: `GetTickCount` counts milliseconds modulo 2^32, and its readings do not go backwards;
     `WaitForMultipleObjects` succeeds; it and `Sleep` return at most `late` ms after their time is up;
     a turn without its wait takes at most `busy` ms.
   * *Scraper*: console API calls succeed, reads lie inside the buffer, the program's behaviour between
     polls is described by the relations `Ran` and `Anything` of `Spec/Scraper.lean` and by the
     hypothesis `Noticeable`, what becomes of it during a resize by `Resized` and `ResizeOk` of
     `Spec/ScraperSession.lean`; there are fewer than 2^32 markers and polls; the temporary column array is
     zero-initialized where the code leaves it uninitialized.
   * *ConsoleResize*: the console follows `Documented` of `Spec/ConsoleApi.lean`; programs do not change its
     sizes during a resize (`Polite`).
   * *LargeConsoleRead*: the console does not change during the read.
   * *Client (libwinpty)*: one critical section is held by one thread at a time (the serialisation of the
     calls follows from it, C81); DuplicateHandle's and the overlapped operations' answers are arbitrary; the agent's replies are arbitrary bytes.
   * *winpty_open*: every system call's answer is a field of `Env`; texts of exceptions are simplified;
     the result of restoring the window station is ignored, as in the code.
   * *Adapter*: sequentially consistent interleaving of the threads' steps; a wake-up pipe is a number of
     bytes with a capacity of at least 1; `pthread_create` and `pthread_join` succeed; `winpty_set_size`'s
     result is ignored, as in the code; a signal is delivered at any time after a change of size.
   * *Terminal modes, program lookup*: a descriptor's terminal does not change; `realpath`, `access`,
     `cygwin_conv_path`, `mbstowcs`, `FormatMessageW`, `CW_SYNC_WINENV` are parameters; `tolower` is ASCII's.

## Defects of the code found on the way

Each is a theorem with a concrete witness.

| theorem | what goes wrong |
|---------|-----------------|
| C02_huge_length_is_not_a_decode_error | a string length in a packet that cannot be allocated ends the process with an allocation failure instead of a decode error |
| C10_vt_unbalanced | in VT-input mode the synthesized records have presses without releases |
| C11_reply_mistaken | a cursor-position reply after a lone ESC is taken for a key |
| C12_dropped | an incomplete UTF-8 character is dropped at the time-out |
| C17_surrogate_append_defect | appending to a line that ends with a lone surrogate shows the wrong text |
| C21_white_blank_defect | trailing blanks on a white background do not show it |
| C23_defect | after a clear while the cursor is hidden, showing it writes nothing |
| C25_unmarked_scroll_defect | lines that scroll out of the buffer before the first marker exists are lost |
| C25_above_base_defect | the window made higher at the end of the buffer, after a clear: lines come out in wrong rows |
| C26_stale_info_defect, C26_resize_abort_defect | a marker is written into the window; a resize with a marker at row 0 aborts the agent |
| C69_stale_rows_defect, C69_stale_window_defect | in direct mode rows stay shown when the window becomes less high; a resize reads the window where it was before the resize, which may lie outside of the buffer |
| C34_too_small_defect | asking for the process list with too small an array loses the session |
| C53_defect | a line feed in a console cell reaches the terminal |
| C55_defect | control characters in a title reach the terminal |
| C63_startup_defect, C63_no_size_defect | a resize during the adapter's start is lost; an uninitialized size is sent if stdin is no terminal |
| C65_not_restored_defect | a terminal stays in raw mode if a later terminal call fails |
| C73_long_pause_defect | if the agent stands still for 25 to 49 days (a suspended machine) it does not poll when it goes on, but waits until the 49 days are over |
| C71_early_client_defect | a client that connects before the debug server waits for one makes the server end |
| C77_no_fallback_defect | if the helper agent is refused the background desktop, winpty_open fails (agent died) instead of going on on the caller's desktop |
| C77_flooded_defect | the helper agent is aborted if 64 KiB are sent to it (only a peer that is not the library does so) |
| C79_four_bytes_defect | in a locale with four bytes for a character (GB18030) the adapter's error message is read past the end of its array |
| C79_zero_size_defect | a terminal that reports zero columns or rows makes the adapter abort instead of using 80 by 25 |
| C79_not_text_defect | a `WINPTY_DEBUG` value that is no text in the locale makes the adapter abort |
| C80_ctrl_d_defect | the key viewer does not end at a Ctrl-D that arrives in the same read behind another key |
| C82_out_of_memory_defect | when memory is exhausted an exception leaves the C API, from the conversion of a trace message's argument |
| C85_out_of_memory_defect | if `new` fails in `allocatedSid` (or `localItem`), the SID (or list, or descriptor) it was to own is lost |
| C88_suspended_defect | a process suspended (for example in a debugger) after it opened the debug server's pipe makes every other process that traces wait for ever: `WaitNamedPipeW` has no time limit, and the server waits for the first process's message |
| C90_break_defect | A program that makes a Ctrl-Break event for the processes of its console ends the agent, which handles only Ctrl-C (src/agent/Agent.cc:55-62). |
| C92_long_path_defect | If the library's file has a name of 4096 units or more, an assertion in winpty_open ends the calling program (src/libwinpty/AgentLocation.cc:49). |
| C93_no_thread_defect | If a relay thread cannot be created, the adapter later joins a thread that was never started: the answer of pthread_create is not looked at (src/unix-adapter/InputHandler.cc:45, src/unix-adapter/OutputHandler.cc:43). |

Observed, not stated as theorems: a second spawn after a success makes the agent fail an assertion; a
terminal of 0 columns makes the adapter fail an assertion; `WakeupFd::reset` aborts on `EINTR` whereas
`set` retries; the adapter's signal handler may change `errno` of the interrupted thread; requests that are
buffered when the control pipe closes are discarded; `winpty_set_size`'s failure is not noticed by the
adapter; the adapter hangs at its end if the terminal does not take the output.

## Axioms each theorem depends on

(`#print axioms` of every theorem named in MANIFEST.json.)

* **(none)** (6): C24_no_other_lines, C41_context, C65_not_restored_defect, C71_last_error_kept, C71_early_client_defect, C78_version

* **propext** (24): C02_huge_length_is_not_a_decode_error, C06_empty_refused, C17_surrogate_append_defect, C22_last_request, C23_defect, C24_single_read_would_fail, C33_error_optional, C46_guard_restores, C46_guards_nest, C53_defect, C55_unchanged, C58_check_error, C63_startup_defect, C65_refused, C70_strangers_shut_out, C70_no_descriptor_no_pipe, C83_empty_refused, C84_no_library, C90_survives_partial, C90_break_defect, C90_child_default, C90_interrupt, C92_unique, C93_no_thread_defect

* **Quot.sound, propext** (90): C11_reply_swallowed, C12_kept, C16_change_detection, C16_skip_is_safe, C21_white_blank_defect, C26_texts_differ, C33_set_size_args, C32_latched, C32_silent_after_close, C33_spawn_outputs, C33_set_size_args, C34_no_overrun, C35_block_copied, C35_child_gets_block, C36_arguments_roundtrip, C36_with_program_name, C41_wraps, C45_copy, C45_copy_size, C45_copy_no_overread, C45_copy_nul, C45_terminated, C45_length, C46_messages, C47_set, C48_xp, C48_xp_none, C48_xp_smallest, C48_xp_no_font, C49_no_double_close, C49_open_iff_held, C49_closed_once, C50_flag_is_word, C50_otherwise_off, C55_title_partial, C55_defect, C57_handles_balanced, C58_check, C63_no_size_defect, C65_restored, C65_raw, C65_succeeds, C66_runnable, C67_environment, C67_message, C68_range, C70_direction, C71_printed, C71_message, C75_startup, C76_zero_key_defect, C76_order, C76_mode, C77_refused, C77_flooded_defect, C78_older, C79_conversions, C79_messages_whole, C79_four_bytes_defect, C80_ends_partial, C81_one_after_another, C81_during, C81_exclusive, C81_program_order, C81_real_time, C81_no_deadlock, C82_out_of_memory_defect, C84_xp, C84_neither, C84_table_traced, C85_safe, C85_assert, C85_usable, C85_released, C85_failed, C85_out_of_memory_partial, C85_out_of_memory_defect, C85_pipe, C85_debug_server, C88_suspended_defect, C88_time, C89_child_end, C89_refused, C89_end, C90_close, C91_press, C94_lent_memory, C94_closed, C94_error, C94_connected

* **Classical.choice, Quot.sound, propext** (328): C01_writer, C01_roundtrip, C02_reads_only_what_was_written, C02_rejects_otherwise_partial, C02_whole_packet, C03_chunk_independent, C03_exactly_the_complete_packets, C03_bad_size_aborts, C03_never_stalls, C03_client_reads_one_packet, C03_client_errors, C04_encode_is_standard, C04_encode_rejects, C04_encode_fits, C04_roundtrip, C04_decode_exact, C04_length_and_bounds, C05_encode_is_standard, C05_shape, C05_roundtrip, C06_longest_prefix, C07_chunking, C08_step, C08_each_byte_once, C09_text, C10_keyboard, C10_modifiers_partial, C10_vt_unbalanced, C11_query_only_when_pending, C11_one_outstanding, C11_reply_after_escape_partial, C11_reply_mistaken, C11_asked, C12_timeout_partial, C12_timeout_ascii, C12_escape_key, C12_dropped, C12_never_delayed, C13_in_window, C13_not_typed, C14_mouse_records, C14_mouse_records, C15_same_key, C15_shift_tab, C17_sent_lines_shown, C17_nothing_else_changes, C18_cursor_position, C19_no_injection, C19_plain_no_escape, C19_esc_is_csi, C20_utf8, C20_cells_once, C21_colours, C21_line_colours_partial, C21_flags_read, C21_flags_shown, C22_mouse_mode, C22_shutdown, C23_hidden, C23_shown_partial, C24_cells_in_place, C24_chunks_equal_one_read, C25_transferred_partial, C25_terminal_shows_partial, C25_in_order, C25_poll_goes_through, C25_no_needless_clear, C25_scrolled_window_sent, C25_only_changes_sent, C25_moved_up_clears, C25_cursor, C25_unmarked_scroll_defect, C25_above_base_defect, C26_resize, C26_found, C26_in_range, C26_markers_differ, C26_every_row, C26_visible_untouched, C26_reads_in_buffer, C26_resize, C26_stale_info_defect, C26_resize_abort_defect, C27_limits, C27_initial, C27_resize, C27_resize_rejects, C28_written_in_order, C28_nothing_left, C28_read_in_order, C28_peek_and_read, C28_never_stuck, C28_no_assertion, C29_reads_only_below_limit, C29_bounded, C30_final_scrape, C30_flushed, C30_flushed_conerr, C30_not_closed_otherwise, C30_waits_for_client, C30_no_hang, C30_exit, C30_exits, C31_closed_means_exit, C31_stops, C31_notices, C31_no_request_after_exit, C32_failure_closes, C32_pairing, C33_error_iff_failed, C33_codes, C34_fits_partial, C34_too_small_defect, C34_agent_reply, C34_broken_promise, C37_child_arguments_untouched, C37_errors, C37_boundary, C38_decimal, C38_hex, C38_parses_back, C39_parameters_survive, C39_with_unique_pipe_name, C39_commands, C40_config, C41_names_differ, C41_successive_names_differ, C41_characters, C41_name, C41_all_bits, C42_nothing_left_pending, C42_success_is_whole, C42_waiting, C42_terminates, C33_codes, C43_output, C43_error_output, C43_input, C43_output_goes_on, C43_input_goes_on, C44_never_stuck, C44_read_promised, C44_ends, C44_completion_wakes, C44_main_ends, C44_aborts_only, C47_intersection, C47_contains_cell, C47_contains_rect, C47_construct, C47_size, C47_ensure_line, C47_contains_empty, C47_construct_at, C48_best_of_any_table, C48_small_font, C48_wide_enough, C48_fallback, C51_every_sequence_decodes, C51_prefix_code, C51_buffer_suffices, C51_xterm_keys, C51_terminal_keys, C52_meaning, C52_ctrl_c, C53_controls_partial, C53_shown_partial, C54_title_complete, C54_windows_versions, C56_control_writable, C56_agent_spawn, C56_agent_spawn_once, C56_client_created, C56_client_refused, C56_end_to_end, C56_config, C56_config_flags, C56_from_arguments, C58_only_to_agent, C58_session_peer, C59_failure_leaves_nothing, C59_success_keeps_three, C59_free_closes_all, C60_station_restored, C60_spawn_desktop, C60_default, C61_result, C61_names, C61_agent_parameters, C61_opens, C61_agent_sends_names, C61_failures, C62_writes, C62_plain, C62_plain_no_escape, C62_conerr, C63_resize_noticed_partial, C63_always_right_partial, C63_known_size, C64_all_relayed, C64_exit_code, C64_end_noticed, C66_found, C66_not_found, C66_with_directory, C68_resize, C68_shrink, C68_stays, C68_set_up, C69_window_sent_partial, C69_terminal_shows_partial, C69_poll_goes_through, C69_resize_goes_through, C69_back_goes_through, C69_reads_inside, C69_in_order, C69_only_changes_sent, C69_cursor, C69_stale_rows_defect, C69_stale_window_defect, C70_friends_admitted, C70_single_local, C70_debug_everyone, C70_debug_pipe, C71_same_configuration, C71_one_copy, C71_lines_partial, C72_idle_poll, C72_idle_direct, C73_regular_partial, C73_refines, C73_awaited, C73_no_assertion, C73_long_pause_defect, C74_picture, C74_mouse, C74_title_partial, C74_received_open, C74_received_closed, C74_console_partial, C74_window_partial, C74_cursor, C75_session, C75_read, C75_heard, C75_text, C75_keys, C75_queries, C75_mouse_events, C75_mouse_mode, C75_sizes, C75_asked, C76_readable_partial, C76_output_partial, C76_key_words, C76_mouse_words, C76_key_names, C76_options, C76_key_text, C77_name_sent, C77_kept, C77_ends, C77_no_abort_partial, C77_opens, C77_fallback_partial, C77_no_fallback_defect, C78_later, C78_detects, C79_starts, C79_no_session, C79_not_found, C79_refused, C79_every_end, C79_options, C79_no_abort_partial, C79_zero_size_defect, C79_not_text_defect, C80_shown, C80_complete, C80_harmless, C80_ctrl_d_defect, C80_asked, C80_session, C80_refused, C81_not_mixed, C82_safe, C82_says, C82_no_leak, C82_throws_partial, C83_pool, C83_table, C83_same, C83_destroyed, C84_safe, C84_vista, C84_tracing, C86_off, C86_safe, C86_libraries, C86_reported, C86_version_text, C87_complete, C87_readable, C87_default_table, C88_whole_messages, C88_before_return, C88_delivered, C88_handles, C88_returns_partial, C88_no_server, C88_identification, C89_accounted, C89_bounded, C89_no_leak, C89_screens, C89_child, C91_messages, C91_no_messages, C92_beside_partial, C92_missing_partial, C92_long_path_defect, C92_opening, C93_objects_partial, C93_threads_partial, C93_order_partial, C93_end_partial, C93_returns_partial, C93_notices_partial
