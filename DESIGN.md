# Formal model of jqtrade: design

## Trusted base

* The Lean 4.33.0 kernel and the standard axioms `propext`, `Quot.sound`, `Classical.choice`
  (no other axiom; no `sorry`, no `native_decide`, no `bv_decide`).
* The reading of the Python source as the Lean model: every model definition cites the file and
  lines it models, and says where it simplifies.
* Only Lean core is used (no Mathlib import is needed).

## Layout (`lean/Verif`)

| directory | content |
|---|---|
| `Py/` | the Python primitives the code uses: strings as `List Char`, insertion-ordered dicts, stable sort, regular expressions by list of successes, `int()`, `strptime` |
| `Model/` | the code of /repo, function by function, with citations |
| `Spec/` | small independent specifications used in theorem statements |
| `Lemmas/` | helper lemmas (not claims) |
| `Check/` | the assertions of /repo/tests, checked on the model (tests of the model, not proofs) |
| `Props/` | the property theorems `c01_…`, each with an `example` showing that a concrete case meets its hypotheses |

## Modelling decisions

* **Strings** are `List Char` (literals `c!"…"`), so that the kernel reduces them. Files are
  `List Char`; `tell()` is the number of characters consumed (opaque text cookies are not compared by the
  code). `Model/TextFile` has the bytes, and C82 justifies the characters for files that can be decoded.
* **White space** is Python's (`str.isspace`; `int()` without the four ASCII separators). **Digits** in `int()`, `\d` and `strptime` are
  the ASCII ones: Python also takes other Unicode decimal digits (full width, …), which no broker file or setting uses.
* **Dicts** are association lists with Python's insertion order: setting an existing key keeps its
  place, a new key goes last.
* **Exceptions** are values. A stateful function that may raise returns the new state *and* the
  result, because Python keeps the effects made before the raise.
* **Floats** (prices, balances) are abstract in most files: a type parameter with the operations the code
  applies (truth value, `str`, `round`, `==`, parse). Theorems hold for every interpretation. `Model/PyNumber` is the
  interpretation that Python has: an `int`, or a double (`Py/Double`: IEEE 754 without the payload of a `nan`; `float(text)`,
  `repr`, `round`, `-`; compared with CPython on 1578 values). C97 proves that this `float` is the nearest double and this `repr` the
  shortest text, so only that CPython does the same is assumed. What pandas makes of a cell stays open. Where floats
  compute times (`Model/Millis`) they are rationals with IEEE rounding (`Py/Float`; compared with CPython on 3300 quotients).
* **Scheduler time** is an integer number of microseconds of naive local time, a day is an
  integer, `combine day tod = day*86400000000 + tod`. No DST (China has none).
* **Order timestamps** are civil datetimes with `strftime`/`strptime` modelled by the CPython
  alternation order (needed for the round-trip property).
* **Loops that may not terminate** get fuel and return `none` when it runs out; non-termination is
  the theorem that every fuel gives `none`.
* **The event loop** is a labelled transition system (`wake`, `iterate now`, `signal`), executions are
  arbitrary label sequences, clock readings are arbitrary.
* **Processes and threads** are small-step interleaving semantics over a shared state.
* **Crash**: the persistent state is the file system; a crash keeps the files and drops the memory,
  at any point between primitive file operations (`open` truncates, partial writes, `close`, atomic
  `move`).
* **JSON** of the data file is modelled as a writer and a parser on characters; the parser accepts
  exactly the grammar of `Spec/JsonText` (RFC 8259 with `NaN` and `Infinity`; no lone surrogates).
  Numbers are kept as their texts, with a read-back law. JSON texts that are not a dictionary of
  orders (never written by the code) are treated as unreadable.
* **User programs** are arbitrary functions of everything they can see; market data and time enter as
  part of an arbitrary state, so a theorem about all programs covers programs that look at them.
* **The trade gate** seen from the account is an arbitrary function (any exception, any report); the
  AnXin file gate is modelled separately and connected.

## Reading `seeded/LOG.jsonl`

A theorem or helper "failed" means that its proof no longer checks for the edited model. That is weaker than "its statement is false for the
edit": a proof can fail because of its form only. From strongest to weakest evidence:

* a witness (`_refuted`, `_witness`) or an `example` that failed is closed by computation, so it is really false;
* `failed_directly` (edits written by hand): the theorem's own proof failed, with the failed helper lemmas assumed;
* `failed_theorems` beyond that: the theorem uses a helper lemma whose proof failed;
* only `failed_helpers` (most generated edits): the build stopped at a helper lemma, and no property theorem was looked at. These entries do
  not show that a property excludes the edit, and must not be counted as if they did.

Of these last entries 40 were drawn at random, to be run on with the failed helper lemmas assumed; 22 of them were (5 stopped before the end),
18 were not. In 15 of the 22 a property theorem's own proof failed, in 21 an `example` or a witness (once only an `example` of the model in
`Check/RepoTests`, `au0427`), and in one neither (`au0076`; an `example` that excludes it was added). One in 22 is no bound for the rest.

## Not modelled

Logging text (only what C85–C87 say of it, and which notification is logged), asyncio/uvloop internals (only timer and notify),
psutil internals (the process table is an input), argparse beyond what these parsers use (the word `--` is refused, as in CPython 3.11;
the model was compared with CPython 3.11's argparse on 6000 random command lines of a parser with the same options,
without a difference), pandas (tables without quotes: lines of only blanks and tabs
skipped, cells split at commas, `NA` words missing; the conversion of a cell may depend on all cells of its column
and is otherwise arbitrary; a first line longer than the header is an error, not an index), operating-system buffering other than flush-at-close,
`SystemExit` and `KeyboardInterrupt` raised inside a task, arguments of types that no caller would use (an unhashable `side`, a time of
`run_daily` that is no text), DST, encodings whose decoder has a state between characters (UTF-16 with BOM, UTF-7), memory exhaustion.

## Properties: plan

Status words: *prove* = full statement; *partial* = the code violates the statement: a refutation
theorem with a concrete witness and a `_partial` theorem for the largest true part.

| id | model | plan |
|---|---|---|
| C01 | `Model/Queue`: binary heap as in CPython `heapq` + abstract pending multiset | prove by invariant over operation lists |
| C02 | `Model/ThreadQueue`: per-thread programs, lock/body/unlock steps | prove by simulation with the atomic queue |
| C03 | `Model/Loop` LTS | prove: invariant over executions |
| C04 | `Model/Loop` | prove: invariant over executions |
| C05 | `Model/Loop` + sources as event streams | prove: order of firing trace; independence from clock |
| C06 | `Model/Loop` | prove over all continuations |
| C07 | `Model/EventSource` | prove equality with the day-by-day specification; an entry added later starts the source over (`c07_added_entry_starts_over`) |
| C08 | `Model/EventSource` | partial. Refuted by `c08_last_day_repeats_refuted` (the last day of the 365-day window is generated again while it is still that day; `c08_default_config_witness` is the default configuration). Proved: the first window, and the sequence of windows for every clock |
| C09 | `Model/TimeExpr` with the regular expressions | partial. For every text without a colon, accepted exactly when it is a base, or a base, a sign and one to three counted units in any order (with or without a final newline), of which the last of each unit counts (`c09_exact_partial`); refuted as a statement of "the stated hours, minutes and seconds" for a repeated unit and for a trailing newline (accepted) |
| C10 | `Model/TimeExpr` | partial: `HH:MM` and `HH:MM:SS` are right for all values; a text with more fields is not refused (`c10_extra_fields_refuted`) |
| C11 | `Model/Timers` | proved |
| C12 | `Model/Strategy` + `Model/Bus` | proved: class names injective, emission runs exactly the one callback |
| C13 | `Model/Strategy` | proved |
| C14 | `Model/Bus` | proved over register/unregister histories made between emissions |
| C15 | `Model/EventSource` | partial: an empty source hangs in live mode (refutation); sources made by the strategy and sources with an end return |
| C16 | `Model/Reschedule` | partial. Refuted: each callback appends another one, every fuel runs out, also after unschedule (`c16_never_returns_refuted`). Proved: never-scheduled sources; unschedule silences the pending message and leaves other sources alone; a scheduled source delivers its events in order, each once (`c16_delivers_in_order`) |
| C17 | `Model/Api` | proved |
| C18 | `Model/TradeGate` | partial: proved on POSIX for every accepted order and for every one-day history in which the disk does not fill up in mid-line, and for a whole process from `process_initialize` on (`c18_started_partial`); on Windows a blank line follows every record (`c18_windows_blank_lines_refuted`) |
| C19 | `Model/Account` + `Model/TradeGate` | partial: refuted (`c19_short_sent_as_long_refuted`: the account drops the side); the gate itself refuses other sides |
| C20 | `Model/Account` | proved for every gate |
| C21 | `Model/Account` + `Model/TradeGate` | partial: refuted (`c21_written_but_none_refuted`, `c21_unserialisable_price_refuted`, `c21_failed_order_stays_refuted`); what each call leaves in the files and the book, whichever step fails, is proved exactly (`c21_exact_partial`, including a copy by `shutil.move` that fails) |
| C22 | `Model/Account` | proved for every gate |
| C23 | `Model/Account` + `Model/TradeGate` | proved (`c23_failed_writes`: also what is left of the record when the cancel file cannot be written; `c23_history`, `c23_started`: the whole file over a history and over a run from `process_initialize` on) |
| C24 | `Model/Api` | proved |
| C25 | `Model/Api` | partial: the orders returned are exactly right (`c25_exactly_matching`); an order without status makes a status filter raise (`c25_order_without_status_refuted`) |
| C26 | `Model/Account` | proved for well-formed reports; a malformed report is applied up to the bad entry (`c26_malformed_prefix`) |
| C27 | `Model/Account` | partial. Refuted: a reported zero is ignored (`c27_zero_ignored_refuted`); exactly when a figure is taken over: `c27_cash_iff` |
| C28 | `Model/Account` | partial. Proved over operation histories for long positions; refuted for short positions (`c28_short_side_refuted`) |
| C29 | `Model/Account` | proved; a second synchronisation with the same report changes nothing (`c29_second_sync`) |
| C30 | `Model/Account` notifications | proved, also which notifications are given exactly (`c30_told_exactly`), for gates reporting each order once per poll; refutation without the monotonicity hypothesis (`c30_reopened_witness`) |
| C31 | `Model/Account` with a heap of order cells | proved for every gate |
| C32 | `Model/Account` with a heap of position cells | proved |
| C33 | `Model/Order`, `Py/Time` | partial: proved for years 1000–9999 and a style whose price is the order price (true of orders made or loaded by the code); refuted for year 999 (`%Y` unpadded) and for a mismatched style; `c33_exact`: these are the only exceptions |
| C34 | `Model/Code` | proved |
| C35 | `Model/Code`, `Model/TradeGate` | partial: separator injection (`c35_comma_code_refuted`, `c35_newline_code_refuted`); proved for codes without comma and line end; `c35_exact` counts fields and line ends for every accepted code |
| C36 | `Model/OrderSync` | proved for both files; polling again without a change of the files changes nothing (`Props/C36_Again`) |
| C37 | `Model/OrderSync` | partial: refuted for a cut after the nineteenth comma, in the header, and between `\r` and `\n`: the file is then blocked for ever (shown for every such cut, not only a witness); proved for all earlier cuts, and for all cuts of a line of an unknown order |
| C38 | `Model/OrderSync` | proved |
| C39 | `Model/OrderSync` | partial: refuted (fields are assigned one after the other); proved for a wrong status or field count; in every case no other order changes, and each field of the named order is the old value or that of the line (`c39_confined`) |
| C40 | `Model/Persist` | partial: proved on POSIX at every crash point of every call and over every history of calls, crashes and restarts; refuted on Windows (`c40_windows_refuted`: `shutil.move` empties the old file before copying), and wherever the temporary file cannot be renamed and the copy then fails (`c40_failed_copy_refuted`; excluded by `Env.Renames`) |
| C41 | `Model/Persist` | partial: on POSIX every acknowledged order survives every history of crashes and restarts; an order already in the broker's file is lost when killed before the book is saved (`c41_written_lost_refuted`); on Windows, or where the temporary file is copied because it cannot be renamed, acknowledged orders may be lost (`c40_windows_refuted`, `c40_failed_copy_refuted`) |
| C42 | `Props/C42_Restart` | partial: proved, order by order, for every history with any number of restarts, for each order that does not have both a rejection and updates; refuted for the others, which always show their last update after a restart |
| C43 | `Model/OrderSync` | partial: refuted: the offset of the day before is applied to the new file. Exactly: beyond the end nothing is read (`c43_updates_missed_refuted`), behind the first comma of a line the file is blocked for good (`c43_blocked_refuted`), otherwise the lines before are skipped (`c43_from_line_partial`) |
| C44 | `Model/FileWriters` | partial: in every interleaving every successful write is there exactly once; the header may be written twice (`c44_header_twice_refuted`), namely when two calls open the empty file before the first record is written |
| C45 | `Model/Retry` | partial: calls and result proved; a second set_options wraps the reader again and multiplies the attempts (`c45_attempts_multiply_refuted`; never fewer than without it, `c45_never_fewer`) |
| C46 | `Model/Balance` | partial: the existence checks come before, and are not retried (`c46_missing_reported`); the first complete read decides (`c46_first_complete`), and if there is none the last error is raised (`c46_last_error`); every cut before the closing row is refused when each row begins with a number (the time stamp); refuted when a row may begin with an empty field (`c46_empty_first_field_refuted`) |
| C47 | `Model/Balance` | partial: the report is proved; that rows of other accounts make no difference is refuted (`c47_other_accounts_refuted`: pandas chooses the type of a column by all its cells, so a cell of another account that is no number makes `int('200.0')` raise); proved while the types of the converted columns stay the same |
| C48 | `Model/Cli` | proved for the documented separate options, in every order and with repetitions; joined forms (`--name=x`) are not understood (`c48_joined_form_refuted`) |
| C49 | `Model/Cli`, `Model/Tasks` | partial: proved for every interleaving of any number of processes if no task starts (other than by forking) a process whose command line has the two words; refuted otherwise: a task starting one of its own name (`c49_child_refuted`), a task with a child such as `tail -f jqtrade_start_task.log` (`c49_hidden_refuted`) |
| C50 | `Model/Cli` | partial: never signals anything that was not selected; all selected ones are signalled when the command lines are of the documented form; refuted with an unrelated process, with a child hiding its parent, for `stop_task` signalling itself, and when a task ends while the list is read |
| C51 | `Model/Cli` | proved, which settings are accepted exactly (`c51_accepted_exactly`); a trailing `;` is refused (`c51_trailing_semicolon_refuted`) and a refused setting changes nothing |
| C62 | `Model/Cli` | partial: the duplicate check is exact for command lines of the documented form; one process whose name cannot be read (`--name=x`, no name, or just ended) makes every start with a free name fail (`c62_unreadable_refuted`, `c62_joined_form_refuted`) |
| C63 | `Model/Run` | proved: set-up, real event sources of the account and of the tasks, bus, queue and loop composed by simulation with `Model/Sources`; callbacks with any effect on a state; with an end date and, window after window, without; `Props/C63_Schedule`: counts over whole days, from which the assertions of `tests/strategies/schedule.py` follow for every run |
| C64 | `Model/Persist`, `Spec/Flow` | prove by an invariant over operations, kills and restarts (`Lemmas/FlowInv`), combining C18, C29, C36, C40, C42; `c64_started`: in a whole process, from the options of the built-in gate, only orders that were asked for are shown |
| C65 | `Model/Process`, `Spec/Process`, `Spec/Shown` | proved: C63 with the account as state and the user's functions as arbitrary programs over the API; composed with C64 for the built-in gate; `Spec/Lives` adds any number of processes one after the other, each killed anywhere; `c65_started` goes from `process_initialize` with the options of the built-in gate (C78, C96) to the orders that the user sees |
| C66 | `Model/Process` | partial: one set-up; refuted after a second `set_options` (`c66_options_twice_refuted`: the callbacks of the first account object stay on the bus); which callbacks there are after any calls of `set_options` is stated in `Props/C66_Numbering`, their priority in `Props/C66_Priority` |
| C67 | `Model/Launch` | partial: `stem.py` without another dot, not imported yet, not hidden; refuted for every name with another dot (`c67_dotted_refuted`: `my.strategy.py` runs `my.py`), witnesses for `json.py`, a package next to the file, other endings |
| C68 | `Model/Launch` | partial: all other names; refuted for the strategy's own objects with an API name; no configuration file can leave out the account's functions (C52) |
| C69 | `Model/Launch` | proved |
| C70 | `Model/Launch` | partial: refuted by an unrelated process with the two words or `--name=x` (the listing ends there) |
| C71 | `Model/Launch` | proved |
| C72 | `Model/Run` | proved, from the set-up through every execution of the loop |
| C73 | `Model/Args` | proved: `start_task` runs exactly for the lines that describe a task (`c73_starts_iff`, an equivalence with a grammar of the ways of writing options) |
| C74 | `Model/Args`, `Model/Cli` | partial: what is read back is characterised exactly (`c74_read_exact`); joined and abbreviated options are overlooked, and a task started with `--name=x` keeps every other task from starting (`c74_joined_name_blocks_refuted`) |
| C75 | `Model/Args` | partial: no command runs unasked; the empty command line, and only it, ends with an `AttributeError` (`c75_no_word_refuted`) |
| C76 | `Model/Periods`, `Model/Strategy`, `Spec/Options` | proved: acceptance is an equivalence with a grammar of the values (`c76_times`, `c76_set_options`) |
| C77 | `Model/Periods`, `Model/Startup` | partial: true for the last understood call (`c77_given_partial`); forgotten by a later call (`c77_forgotten_refuted`), texts in the configuration end the process with a task of every minute (`c77_minutes_texts_refuted`) |
| C78 | `Model/Startup`, `Spec/Startup` | proved: C65 and C76 composed, with `process_initialize` as an arbitrary program; with an end date and live; also for processes that ask for no account, with any number of calls of `set_options` (`Props/C78_NoAccount`); with any number of calls that make, replace or fail to make accounts (`Props/C78_ManyOptions`); with trading periods that are not periods (`Props/C78_BadPeriod`); with exceptions in `process_initialize` and tasks whose time is none (`Props/C78_BadTime`) |
| C79 | `Py/Time`, `Spec/Times` | proved: reading a time is an equivalence with a grammar of the texts and a calendar stated apart (`c79_text`); times of five digits are outside the statement (`c79_five_digits_witness`: hour 1 is read as 10) |
| C80 | `Py/Str`, `Spec/Numbers` | proved: `int(text)` is an equivalence with a grammar (`c80_int`) |
| C81 | `Model/BusLive`, `Spec/BusLive` | callbacks that change the bus while it emits: `c81_called_partial` (complete emission, nobody unregisters itself or an earlier callback of the list ⇒ called as often as registered), `c81_bus_unchanged` (quiet callbacks: C14's order up to the first exception); refuted in general: a callback that unregisters itself makes the next be skipped (lists are read by index while they shrink), a new class raises `RuntimeError`, re-registering oneself never ends |
| C82 | `Model/TextFile`, `Spec/TextFile` | byte level of the broker's files (chunks, incremental decoder, `tell` after a failure; compared with CPython 3.11 on 48000 random files). `c82_same_as_text_partial`: decodable files are read as their text, so the character model of C36–C43 is right for them; `c82_utf8_exact`. Without `ignore_error_line` nothing is skipped, whatever the chunks (`c82_strict_partial`, `c82_half_character_strict_partial`). False for undecodable bytes: a whole chunk is lost for ever (`c82_chunk_lost_refuted`, `c82_lost_for_ever_refuted`), a half-written character makes `sync_orders` spin, however long the file (`c82_half_character_hangs_refuted`), and so does one cut by a chunk border before a wrong byte (`c82_cut_character_utf8_refuted`), the position goes back (`c82_goes_back_refuted`), a position inside a line or with a held back `\r` is never left again, so that one wrong byte can silence the file until the next start (`c82_silenced_refuted`, `c82_held_back_witness`), results are not read with `file_encoding` (`c82_result_encoding_witness`) |
| C83 | `Model/Process`, `Spec/ManyAccounts` | partial: replaced account objects stay on the bus (`olds` in the model) and ask the gate of the context. Harmless for gates whose answers do not depend on having been asked before, which the built-in gate is while nothing happens outside; false for a gate that reports an update once (`c83_update_lost_refuted`). With `use_account` false their events do nothing (`c83_switched_off`) |
| C84 | `Model/Clock` | proved with the float operations: `strategy_dt` is the due datetime, `current_dt` the millisecond; `int(time.time() * 1000)` can be ahead by less than 0.25 µs (`c84_clock_ahead_witness`), so a callback may run that much early |
| C85 | `Model/SyncLog`, `Spec/SyncLog` | partial: the log lines of `sync_orders`. A refused cancellation is told only there, and only after a synchronisation got through (`trade_gate.py:418`): refusals that the first one finds (broker files appear after the start, or a process is restarted) are lost (`c85_first_sync_refuted`); from then on each is told once |
| C86 | `Model/Show`, `Spec/Show` | partial: `str` of an order or position tells its values and the kind of its style (`c86_style_named`); `str(context.portfolio)` and `str(get_orders())` show only addresses, because `_UserObject` (`api.py:178`) is inherited by nobody (`c86_portfolio_positions_refuted`, `c86_get_orders_refuted`; of the orders the ids, of the positions the codes, `c86_get_orders_ids_partial`, `c86_portfolio_codes_partial`); an order reported without a style raises when printed |
| C87 | `Model/Show`, `Spec/Show` | partial: records sort by time and their time can be read back; a line of a message may look like a record (`c87_line_forged_refuted`) |
| C88 | `Spec/Reason`, `Lemmas/FlowFact` | partial: nothing is shown that was not reported, refusals come with their reason (`c88_only_what_was_reported`, `c88_refused_with_reason`, over days with crashes; `c88_started` for a whole process, from the options of the built-in gate to the values that the user sees); a comma in the broker's message makes the line too long and it is skipped, so a refused order stays `new` (`c88_comma_shown_new_refuted`, `trade_gate.py:413-416`); a report that differs only in `err_msg` or `entrust_time` is not shown (`c88_changed_text_refuted`, `order.py:302-311`) |
| C89 | `Spec/Portfolio` | proved: cash and positions after any history are a function of the complete balance reports and the accepted sells |
| C90 | in the file | proved: for each checking function, an exception of a kind is raised if and only if there is the mistake it stands for; reading the broker's files strictly raises the exception of the first wrong line (`c90_files_refused`); the balance, of the first wrong row of its tables (`c90_balance_exact`, `Spec/Tables`) |
| C91 | `Model/Office`, `Spec/Office` | proved: a simulation between the shared directory and the task alone (`c91_undisturbed`), also after any other days (`c91_days`, `c91_days_apart`), with `c91_plain_names` and `c91_records_stay`; limits: names that mean the same file (`c91_same_file_refuted`), a cut line about another task (`c91_cut_line_witness`), equal order ids (`c91_same_id_witness`) |
| C92 | `Model/Office`, `Spec/Office` | proved: the order file and the cancel file of all tasks together (`c92_orders`, `c92_cancels`), and read back (`c92_read_back`); over several days (`c92_days`, `c92_other_day`) |
| C93 | `Model/LockWait`, `Spec/LockWait` | partial: proved how the loop of `_write` ends and after how many attempts (`c93_attempts`), what is in the file then (`c93_once`), that it ends if the clock goes on (`c93_ends_partial`); with a clock that is set back it may not end (`c93_clock_back_refuted`); the loop's last attempt is `appendLine` (`c93_is_append`), which the rest of the model uses |
| C94 | `Model/RuntimeDir` | partial: `~` is expanded by the strategy (`strategy.py:204`) but not by the trade gate (`trade_gate.py:537`), so with `runtime_dir="~/jq"` the data file is in a directory named `~` of the working directory (`c94_tilde_refuted`), and a task restarted from another directory has forgotten its orders (`c94_orders_forgotten_refuted`); all other paths are right |
| C95 | `Model/TextFile`, `Model/TradeGate` | partial: proved for files that can be decoded; the result file is opened without `encoding` (`trade_gate.py:399`), so `file_encoding` and a restart do not bring back refusals (`c95_results_lost_refuted`) |
| C96 | `Model/GateSetup`, `Model/BuiltIn`, `Spec/GateSetup` | partial: after a `setup` that returned, the gate is that of `Model/TradeGate` with the settings given or their defaults (`c96_as_configured`), whose files are different files (`c96_files_distinct`); so it is in a whole process whose `process_initialize` works (`c96_process`). What is raised is exactly what is wrong first (`c96_refused_iff`, `c96_start_refused`), with the account left in the context (`c96_start_left`, `c96_caught_refuted`). The context has the gate before it is set up (`strategy.py:238-246`): when `process_initialize` catches the exception, orders are sent with `None` for counter and algorithm once the order directory exists (`c96_sent_without_settings_refuted`), or replace the stored orders, which are read last (`c96_orders_replaced_refuted`); `account_type` is looked at only by `order` (`c96_account_type_refuted`) |
| C97 | `Py/Double`, `Model/PyNumber`, `Spec/Float` | proved: `float` and `repr` characterised (`c97_float_iff`, `c97_repr_shortest`, `c97_repr_form`), also `round`, `-`, `==` and `bool` (`c97_round`, `c97_sub`, `c97_equal`, `c97_truth`), decimals of fifteen digits survive `float`, `round`, `-` and `str`; instances of the abstract theorems for Python's numbers (`c97_twelve_fields`, `c97_price_in_file`, `c97_order_reported`, `c97_cash`, `c97_position`, `c97_data_file`). Limits: an average price with a fourth place is rounded to three (`trade_gate.py:490`, `c97_fourth_place_refuted`), sixteen digits (`c97_sixteen_digits_refuted`) |
| C98 | `Model/TradeGate`, `Spec/Days` | proved by simulation: gates that differ only in the files of other days give the same answers (`c98_day_alone`), calls on one day leave the files of others alone (`c98_past_kept`). Outside: a process that is still running after midnight saves its orders in the data file of the day before, and a process started on the new day does not know them (`c98_over_midnight_refuted`) |
| C99 | `Model/UserView`, `Spec/UserView`, `Spec/ReadFiles` | attributes of `UserOrder`, `UserPosition`, `Portfolio` by name, against tables in terms of the request and the reports (`c99_new_order`, `c99_positions`, `c99_cash`), down to the broker's files (`c99_from_files`; `c99_started`, `c99_refreshed` for the portfolio, from `process_initialize` and the options on, `c99_orders_started` and `c99_only_asked_started` for the orders). False: the side is always `long` (`c99_side_refuted`); an order reported without status or style cannot be read there (`c99_status_unreadable_refuted`); `portfolio.position_value` raises (C58) |
| C52 | `Model/Config` | partial: `lstrip` strips a character set, so of the scheduler options only MARKET_PERIOD can be set (`c52_never_set_refuted`); exact set of names that work proved |
| C53 | `Model/Millis` | partial: sub-second part counted twice (`c53_counted_twice_refuted`), order broken (`c53_order_refuted`); proved for whole seconds. The float operations are modelled too (`Py/Float`): the results hold for every rounding that satisfies `Rounds`, of which IEEE double precision is shown to be one; up to 2106 floats give the exact number of milliseconds or one less, one less only at multiples of 500 µs (`c53_float_close`, `c53_float_lost_millisecond_witness`) |
| C54 | `Model/Timers` | partial: refuted (times of day before the start are never synchronised; a start in the last interval of a day hangs; interval 0 hangs); the exact times are proved |
| C55 | `Model/Api` | partial. The batch functions are not refused (`c55_batch_not_refused_refuted`). Proved: what switches the account on (`c55_switch`), and when the account then exists; a caught failure of set_options leaves it switched on without account (`c55_caught_failure_witness`) |
| C56 | `Model/Account` | partial: collision makes the old order disappear for every gate (refutation); with distinct ids nothing is lost |
| C57 | `Model/TradeGate`, `Model/Store` | partial: a price that json cannot serialise makes every later order be sent and reported as failed (`c57_poisoned_refuted`); transient failures do not |
| C58 | `Model/Account` portfolio | partial: refuted (raises as soon as there is a position) |
| C59 | `Model/Strategy` | partial: resolved by name; refuted for lambdas and shadowed names; proved when the name still means the function |
| C60 | `Model/OrderSync`, `Model/Order` | proved |
| C61 | `Py/Json`, `Spec/JsonText`, `Model/Store` | proved; the texts of numbers are assumed to round-trip; the reader accepts exactly the JSON texts, so any layout of the same orders is read |
