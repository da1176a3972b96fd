{"id": "C01", "title": "Pending messages come out in (time, priority, creation) order, none lost or duplicated", "statement": "For every history of pushes and pops on the message queue, a pop returns a pending message that has the least time, among those the highest priority, among those the one created first; it fails with QueueEmptyError exactly when nothing is pending; and the messages popped so far together with the pending ones are exactly the messages pushed.", "quantifier": "all finite sequences of push/pop operations with arbitrary times, priorities and creation order", "why_tests_cant": "the ordering must hold for every interleaving of pushes and pops of any length; a test samples a few keys", "anchors": ["jqtrade/scheduler/queue.py:PriorityQueue", "jqtrade/scheduler/message.py:Message.sort_key"]}
{"id": "C02", "title": "The thread-safe queue behaves as if each operation were atomic", "statement": "For any number of threads pushing and popping concurrently, with preemption between any two primitive steps of an operation, every completed operation returns what an atomic queue would have returned at the moment it held the lock, and no pushed item is lost or delivered twice.", "quantifier": "all thread counts, all programs of queue operations per thread, all interleavings of lock acquire, body steps and release", "why_tests_cant": "a stress test visits a vanishing fraction of the interleavings", "anchors": ["jqtrade/scheduler/queue.py:ThreadSafeQueue"]}
{"id": "C03", "title": "A callback never runs before the time it was scheduled for", "statement": "Whatever the clock readings, wake-ups and signals, the event loop runs the callback of a message only at a clock reading that is at or after the message's time.", "quantifier": "all executions of the event loop (arbitrary clock readings, spurious wake-ups, signals, callbacks)", "why_tests_cant": "depends on the order of timer wake-ups and clock readings, which tests do not control", "anchors": ["jqtrade/scheduler/loop.py:EventLoop.check_queue"]}
{"id": "C04", "title": "No lost wake-up: pending work always has a timer or a notification outstanding", "statement": "Whenever the loop is idle, not stopping and the queue is not empty, either a queue notification is outstanding or the timer is armed for exactly the time of the earliest pending message.", "quantifier": "all reachable states of the event loop under arbitrary schedules and callbacks that push messages", "why_tests_cant": "a lost wake-up needs one particular interleaving of push, timer stop and timer start", "anchors": ["jqtrade/scheduler/loop.py:EventLoop.check_queue", "jqtrade/scheduler/loop.py:EventLoop.push_message"]}
{"id": "C05", "title": "Scheduled work runs in order of its scheduled time and, at one instant, of its priority, whatever the clock does", "statement": "In every execution of the loop over any set of scheduled event sources whose own events are time-ordered, events fire in non-decreasing scheduled time and, for the same scheduled time, account synchronisation before every-minute tasks before ordinary daily tasks; hence context.strategy_dt never goes backwards. Each source's events fire in its own order, none skipped, none repeated.", "quantifier": "all numbers of sources, all event streams, all clock readings (late, jumping, backwards) and wake-up schedules", "why_tests_cant": "the merge order must not depend on timing, which tests cannot enumerate", "anchors": ["jqtrade/scheduler/event_source.py:EventSourceScheduler.schedule", "jqtrade/scheduler/loop.py:EventLoop.check_queue", "jqtrade/scheduler/event.py:EventPriority"]}
{"id": "C06", "title": "After a stop request or a failing callback nothing else runs, and the failure surfaces", "statement": "Once stop() was called, a signal was handled or a callback raised, no further callback runs in any continuation; the loop ends at its next check; the exception recorded (and re-raised by run()) is the one raised by the failing callback.", "quantifier": "all executions and all continuations after the stop point", "why_tests_cant": "must hold at every possible stop point of every schedule", "anchors": ["jqtrade/scheduler/loop.py:EventLoop.stop", "jqtrade/scheduler/loop.py:EventLoop.handle_message", "jqtrade/scheduler/loop.py:EventLoop.run"]}
{"id": "C07", "title": "A daily task fires exactly once per calendar day of the configured range, at its configured time", "statement": "With an end date, the successive events delivered by an event source are exactly, day by day from the start date to the end date, one event per configured entry at that entry's time of that day (entries at the same time in the order they were added), restricted to start <= time <= end, and then nothing more.", "quantifier": "all start/end instants, all lists of daily entries, all day ranges", "why_tests_cant": "ranges over unboundedly many days and entry lists", "anchors": ["jqtrade/scheduler/event_source.py:EventSource.gen_events", "jqtrade/scheduler/event_source.py:EventSource.get_next_event", "jqtrade/scheduler/event_source.py:EventSource._get_days"]}
{"id": "C08", "title": "In live mode (no end date) daily events run on for ever, once per day", "statement": "Without an end date, an event source with at least one daily entry always delivers a next event, and every entry fires exactly once on each calendar day however long the process runs.", "quantifier": "all running times, including beyond the pre-generated window of days, all clock readings at which more days are generated", "why_tests_cant": "the window is 365 days: no test runs that long", "anchors": ["jqtrade/scheduler/event_source.py:EventSource._get_days", "jqtrade/scheduler/event_source.py:EventSource.gen_events"]}
{"id": "C09", "title": "Market-relative time expressions mean base plus or minus the stated hours, minutes and seconds", "statement": "For run_daily times of the form open|close, optionally followed by + or - and one to three one- or two-digit counts with units h, m or s, the task time on a day is that day's market open (first period start) or close (last period end) shifted by the sum of the stated offsets; anything else is rejected.", "quantifier": "all expression strings, all market periods, all days", "why_tests_cant": "infinitely many strings; a regular-expression slip accepts or mis-reads some of them", "anchors": ["jqtrade/scheduler/event_source.py:TimeExprParser", "jqtrade/scheduler/event_source.py:EventSource.expr_to_time"]}
{"id": "C10", "title": "Clock-time expressions HH:MM[:SS] mean that time of day, and out-of-range values are rejected", "statement": "For every hour 0-23, minute 0-59 and second 0-59, 'HH:MM:SS' and 'HH:MM' schedule exactly that time of day; any other value of the fields raises an error instead of scheduling something else.", "quantifier": "all integer values of the fields (any width, sign or padding accepted by int())", "why_tests_cant": "all strings", "anchors": ["jqtrade/scheduler/event_source.py:EventSource.add_event"]}
{"id": "C11", "title": "every_minute fires at each whole minute step of every trading period, ends included, and at no other time", "statement": "For every list of trading periods, an every_minute task's times of day are exactly start+k*60s for k>=0 while <= end (a fraction of a second in the start is dropped), for each period in order.", "quantifier": "all market periods (any start, end, number of periods)", "why_tests_cant": "all period configurations", "anchors": ["jqtrade/scheduler/strategy.py:Strategy.schedule"]}
{"id": "C12", "title": "Each scheduled task triggers its own function and no other", "statement": "However many tasks are set with run_daily, and whatever their names, the event of the i-th task runs exactly once the callback of the i-th task and no other task's callback.", "quantifier": "all lists of run_daily calls with arbitrary function names (including names that contain digits and underscores)", "why_tests_cant": "depends on generated event-class names never colliding for any names and counts", "anchors": ["jqtrade/scheduler/strategy.py:Strategy.schedule", "jqtrade/scheduler/event.py:create_event_class", "jqtrade/scheduler/bus.py:EventBus.emit"]}
{"id": "C13", "title": "run_daily and set_options work only inside process_initialize", "statement": "A run_daily or set_options call made outside process_initialize raises InvalidCall and changes nothing; the scheduled tasks are exactly the successful run_daily calls made inside it, in order.", "quantifier": "all sequences of calls before, during and after process_initialize", "why_tests_cant": "all call sequences", "anchors": ["jqtrade/scheduler/strategy.py:Strategy.run_daily", "jqtrade/scheduler/strategy.py:Strategy.set_options", "jqtrade/scheduler/strategy.py:Strategy.setup"]}
{"id": "C14", "title": "Event callbacks run by descending priority, then registration order, once per registration", "statement": "After any sequence of register/unregister calls, emitting an event calls, for each matching event class in the order the classes were first registered, exactly the callbacks still registered, higher priority first and in registration order within a priority, as long as no callback changes the bus while it emits.", "quantifier": "all histories of register/unregister calls, all priorities, all class hierarchies", "why_tests_cant": "all histories", "anchors": ["jqtrade/scheduler/bus.py:EventBus"]}
{"id": "C15", "title": "Scheduling an event source returns", "statement": "Scheduling any event source whose time expressions are valid completes (the process does not hang while looking for the next event).", "quantifier": "all event sources, including those with no daily entry, all clocks", "why_tests_cant": "non-termination cannot be observed by a test", "anchors": ["jqtrade/scheduler/event_source.py:EventSource.gen_events", "jqtrade/account/account.py:Account._setup_sync_timer"]}
{"id": "C16", "title": "Adding a daily entry to a source that is already scheduled takes effect", "statement": "Calling daily() on a scheduled event source returns and reschedules the source once.", "quantifier": "all scheduled sources", "why_tests_cant": "non-termination cannot be observed by a test", "anchors": ["jqtrade/scheduler/event_source.py:EventSource.on_events_changed", "jqtrade/scheduler/event_source.py:EventSourceScheduler.schedule"]}
{"id": "C17", "title": "Invalid order requests never reach the broker interface", "statement": "order() with a code, amount, style or side that fails validation raises InvalidParam and leaves the account, the trade gate and the order file untouched; a request that passes has a numeric stem, an XSHE/XSHG suffix, a non-zero integer amount and a known side.", "quantifier": "all codes, amounts, styles, sides and account states", "why_tests_cant": "all strings and numbers", "anchors": ["jqtrade/account/api.py:order", "jqtrade/account/api.py:_check_code", "jqtrade/account/api.py:_check_amount"]}
{"id": "C18", "title": "An accepted order is written to the order file as exactly one record saying what the user asked", "statement": "When order() succeeds with the built-in trade gate, the order file grows by exactly one line of twelve comma-separated fields: order id, account, broker code of the security, side 1 for a buy and 2 for a sell, the absolute amount, and P6/P7 with zero prices for a market buy/sell or AT with the limit price twice; the file starts with the header line.", "quantifier": "all valid order requests and all prior file contents", "why_tests_cant": "all inputs", "anchors": ["jqtrade/account/trade_gate.py:AnXinDMATradeGate.order", "jqtrade/account/trade_gate.py:AnXinDMATradeGate._write", "jqtrade/account/account.py:Account.order"]}
{"id": "C19", "title": "A short-side order is never sent to the broker as a long-side order", "statement": "order(..., side='short') is refused by the built-in trade gate, which only supports long: nothing is written to the order file.", "quantifier": "all codes, amounts, styles", "why_tests_cant": "all inputs", "anchors": ["jqtrade/account/account.py:Account.order", "jqtrade/account/trade_gate.py:AnXinDMATradeGate.order", "jqtrade/account/api.py:order"]}
{"id": "C20", "title": "A returned order id identifies a new order that get_orders shows as the user asked for it", "statement": "If order() returns an id, get_orders() contains under that id an order with the requested code, the absolute amount, action close for a negative and open for a positive amount, the style and price, and status new; all other orders are unchanged.", "quantifier": "all account states, all trade gates, all valid requests", "why_tests_cant": "all states and gate behaviours", "anchors": ["jqtrade/account/account.py:Account.order", "jqtrade/account/api.py:get_orders"]}
{"id": "C21", "title": "If order() returns None, nothing was sent to the broker", "statement": "When order() reports failure by returning None, no record was appended to the order file and the order does not appear in get_orders().", "quantifier": "all states, all failure points inside the trade gate (lock time-out, failure while persisting)", "why_tests_cant": "depends on the exact failure point", "anchors": ["jqtrade/account/account.py:Account.order", "jqtrade/account/trade_gate.py:AnXinDMATradeGate.order"]}
{"id": "C22", "title": "Trade-gate failures never escape into the strategy", "statement": "For every behaviour of the trade gate, including exceptions, order (after validation), cancel_order, sync_balance and sync_orders return normally; a failing order returns None.", "quantifier": "all trade gates and all states", "why_tests_cant": "all gate behaviours", "anchors": ["jqtrade/account/account.py:Account.order", "jqtrade/account/account.py:Account.cancel_order", "jqtrade/account/account.py:Account.sync_balance", "jqtrade/account/account.py:Account.sync_orders"]}
{"id": "C23", "title": "cancel_order forwards exactly the known orders", "statement": "cancel_order of an id the account knows appends exactly one record with that id to the cancel file if that file can be written, and at most the header or a beginning of the record if not; of an unknown id it changes nothing at all; batch_cancel_orders does this for each id in turn.", "quantifier": "all ids, all lists of ids, all states", "why_tests_cant": "all inputs", "anchors": ["jqtrade/account/account.py:Account.cancel_order", "jqtrade/account/api.py:batch_cancel_orders", "jqtrade/account/trade_gate.py:AnXinDMATradeGate.cancel_order"]}
{"id": "C24", "title": "A batch of orders gives one result per entry and a failing entry does not affect the others", "statement": "batch_submit_orders returns a list as long as its input whose i-th element is what order() returns for the i-th entry submitted in sequence, None where that entry is incomplete, invalid or fails.", "quantifier": "all batches of any length with any mix of valid, invalid and incomplete entries, all gates", "why_tests_cant": "all batches", "anchors": ["jqtrade/account/api.py:batch_submit_orders"]}
{"id": "C25", "title": "get_orders returns exactly the orders matching all given filters", "statement": "get_orders(order_id, code, status) returns exactly the account's orders satisfying every filter that was given, keyed by order id.", "quantifier": "all account states and filter combinations", "why_tests_cant": "all states", "anchors": ["jqtrade/account/api.py:get_orders"]}
{"id": "C26", "title": "A balance synchronisation makes the positions exactly what the broker reports", "statement": "After sync_balance with a well-formed report, the long (short) positions are exactly the reported long (short) positions, the last report winning for a repeated code, and nothing of the previous positions remains; when the gate fails or returns no cash or no positions, cash and positions are unchanged.", "quantifier": "all previous states and all reports of any length", "why_tests_cant": "all reports", "anchors": ["jqtrade/account/account.py:Account.sync_balance"]}
{"id": "C27", "title": "After a balance synchronisation the cash figures are the reported ones", "statement": "After sync_balance succeeds, total_value, available_cash and locked_cash equal the values reported by the broker.", "quantifier": "all previous states and all reported values, zero included", "why_tests_cant": "all values", "anchors": ["jqtrade/account/account.py:Account.sync_balance"]}
{"id": "C28", "title": "The closeable amount accounts for every sell order since the last synchronisation and is never negative", "statement": "Between two balance synchronisations, after any sequence of orders, the closeable amount of a position equals max(reported available - sum of the amounts of the successful sell orders for that code, 0) whenever at least one was placed and the reported value otherwise; buys, other codes, cancels and order synchronisations do not change it.", "quantifier": "all sequences of account operations between two synchronisations", "why_tests_cant": "all histories", "anchors": ["jqtrade/account/position.py:Position.on_order_created", "jqtrade/account/account.py:Account.on_order_created"]}
{"id": "C29", "title": "An order synchronisation merges the broker's orders without losing any", "statement": "After sync_orders with a well-formed report, every reported order is present under its id with the reported status, fills, cancels, balance, cost and confirm id; orders not in the report are unchanged; no order ever disappears; a synchronisation that brings nothing new changes nothing.", "quantifier": "all states, reports and histories", "why_tests_cant": "all histories", "anchors": ["jqtrade/account/account.py:Account.sync_orders", "jqtrade/account/order.py:Order.__eq__", "jqtrade/account/order.py:Order.load"]}
{"id": "C30", "title": "Order status notifications: at most one final notification, none after it", "statement": "Over any sequence of order synchronisations, with a gate that reports each order at most once per poll, in which an order never leaves a finished status, the account logs at most one final notification (filled, cancelled, rejected) for the order and nothing after it; each synchronisation logs exactly the news about each order it knew: confirmed, (partly) filled, being cancelled, cancelled or rejected, if the reported state differs from the known one (a NaN differs from itself).", "quantifier": "all sequences of reported states of an order", "why_tests_cant": "all histories", "anchors": ["jqtrade/account/account.py:Account._notify_changed", "jqtrade/account/order.py:Order.has_finished"]}
{"id": "C31", "title": "A UserOrder is a snapshot: it never changes after get_orders returned it", "statement": "Every attribute of a UserOrder obtained from get_orders keeps its value whatever account operations follow.", "quantifier": "all later operation sequences", "why_tests_cant": "all histories", "anchors": ["jqtrade/account/api.py:UserOrder", "jqtrade/account/api.py:get_orders", "jqtrade/account/account.py:Account.sync_orders"]}
{"id": "C32", "title": "A UserPosition follows later sell orders until the next balance synchronisation and is frozen afterwards", "statement": "The closeable_amount of a UserPosition obtained earlier shows later successful sell orders of that code until the next sync_balance, and never changes after it; a code without a position reads as an all-zero position.", "quantifier": "all later operation sequences", "why_tests_cant": "all histories", "anchors": ["jqtrade/account/portfolio.py:Portfolio.long_positions", "jqtrade/account/api.py:UserPosition", "jqtrade/account/api.py:UserPositionDict"]}
{"id": "C33", "title": "Orders survive serialisation", "statement": "Loading the JSON form of any order gives back an order equal in every field, for all creation and entrust times to the microsecond.", "quantifier": "all orders", "why_tests_cant": "all field values", "anchors": ["jqtrade/account/order.py:Order.json", "jqtrade/account/order.py:Order.load", "jqtrade/common/utils.py:parse_dt"]}
{"id": "C34", "title": "Security codes survive the translation to the broker's notation and back", "statement": "For every code accepted by order(), decoding the encoded code gives the code back, and codes of different securities are encoded differently.", "quantifier": "all accepted codes", "why_tests_cant": "all strings", "anchors": ["jqtrade/account/trade_gate.py:AnXinDMATradeGate._encode_security", "jqtrade/account/trade_gate.py:AnXinDMATradeGate._decode_security"]}
{"id": "C35", "title": "No accepted security code can change the number of fields of the order record", "statement": "Every order record written for an accepted request has exactly twelve fields, whatever the code.", "quantifier": "all accepted codes", "why_tests_cant": "all strings", "anchors": ["jqtrade/account/api.py:_check_code", "jqtrade/account/trade_gate.py:AnXinDMATradeGate.order"]}
{"id": "C36", "title": "Incremental order synchronisation equals reading the whole file", "statement": "However the broker's append-only order-update file is cut into successive polls, provided every poll sees whole lines, the orders after the last poll are the same as if the complete file had been read in one poll.", "quantifier": "all files, all cuttings into polls at line ends, all order sets", "why_tests_cant": "all cuttings", "anchors": ["jqtrade/account/trade_gate.py:AnXinDMATradeGate.sync_orders"]}
{"id": "C37", "title": "A poll that sees a half-written last line loses nothing", "statement": "If a poll happens while the broker is in the middle of writing a line, later polls still apply every update.", "quantifier": "all cut positions inside a line", "why_tests_cant": "needs a poll at one particular byte", "anchors": ["jqtrade/account/trade_gate.py:AnXinDMATradeGate.sync_orders"]}
{"id": "C38", "title": "An unparsable update line does not block later updates and, by default, is skipped", "statement": "With ignore_error_line on, a line that has enough fields but cannot be parsed does not prevent the later lines from being applied; with it off, the poll raises and the next poll starts again at that line. A blank or short line stops every poll there.", "quantifier": "all files with malformed lines at any positions", "why_tests_cant": "all files", "anchors": ["jqtrade/account/trade_gate.py:AnXinDMATradeGate.sync_orders"]}
{"id": "C39", "title": "An unparsable update line leaves the order as it was", "statement": "When an update line cannot be parsed, the order it names keeps all its previous field values.", "quantifier": "all malformed lines", "why_tests_cant": "all lines", "anchors": ["jqtrade/account/trade_gate.py:AnXinDMATradeGate._update_order"]}
{"id": "C40", "title": "The saved order book is never torn by a crash", "statement": "If the process is killed at any moment while saving its orders, the data file on disk is the complete previous or the complete new order book.", "quantifier": "all crash points of all save operations in any history", "why_tests_cant": "crash points cannot be enumerated by unit tests", "anchors": ["jqtrade/account/trade_gate.py:AnXinDMATradeGate._save_orders", "jqtrade/account/trade_gate.py:AnXinDMATradeGate._load_orders"]}
{"id": "C41", "title": "An order whose id was returned survives a crash and restart", "statement": "Once order() has returned an id, a crash at any later moment followed by a restart on the same day restores that order; an order written to the broker's file is restored whatever the crash point.", "quantifier": "all crash points, all histories", "why_tests_cant": "crash points", "anchors": ["jqtrade/account/trade_gate.py:AnXinDMATradeGate.order", "jqtrade/account/trade_gate.py:AnXinDMATradeGate.setup", "jqtrade/account/trade_gate.py:AnXinDMATradeGate._load_orders"]}
{"id": "C42", "title": "A restart rebuilds the same order states as an uninterrupted run", "statement": "After a restart the first poll, which re-reads the broker's files from the start, gives every order the state it would have had without the restart.", "quantifier": "all files, all restart points", "why_tests_cant": "all histories", "anchors": ["jqtrade/account/trade_gate.py:AnXinDMATradeGate.sync_orders", "jqtrade/account/trade_gate.py:AnXinDMATradeGate._load_orders"]}
{"id": "C43", "title": "Order updates keep arriving when a process runs over several days", "statement": "When the date changes, the updates in the new day's file are all applied.", "quantifier": "all sizes of the previous and the new day's files", "why_tests_cant": "needs a run across midnight with particular file sizes", "anchors": ["jqtrade/account/trade_gate.py:AnXinDMATradeGate.sync_orders", "jqtrade/account/trade_gate.py:AnXinDMATradeGate._order_update_csv"]}
{"id": "C44", "title": "Concurrent writers of the order file lose no record and write the header once", "statement": "For any number of processes appending to the same order file under the file lock, in every interleaving, each successful write contributes its record exactly once, intact; a write that times out contributes nothing; the header appears exactly once, first.", "quantifier": "all numbers of writers and interleavings", "why_tests_cant": "interleavings of processes", "anchors": ["jqtrade/account/trade_gate.py:AnXinDMATradeGate._write"]}
{"id": "C45", "title": "Retrying stops after the configured number of retries and returns the first success", "statement": "A function wrapped by simple_retry is called at most max_attempts+1 times; the result is the first success; if all calls fail, the last error is raised; an error the predicate refuses is raised at once. Calling set_options again does not change the number of attempts.", "quantifier": "all sequences of outcomes, all max_attempts, all numbers of set_options calls", "why_tests_cant": "all outcome sequences", "anchors": ["jqtrade/common/utils.py:simple_retry", "jqtrade/account/trade_gate.py:AnXinDMATradeGate.setup"]}
{"id": "C46", "title": "A half-written asset or position file is never taken for the truth", "statement": "If the broker's asset or position file is missing its closing empty row (because it is being rewritten), the synchronisation fails and cash and positions stay as they were.", "quantifier": "all truncations of all files", "why_tests_cant": "all truncation points", "anchors": ["jqtrade/account/trade_gate.py:AnXinDMATradeGate._read_csv", "jqtrade/account/trade_gate.py:AnXinDMATradeGate.sync_balance"]}
{"id": "C47", "title": "Only the configured account's rows are used, and empty positions are dropped", "statement": "The positions reported are exactly the rows of the configured account up to its first row without symbol, with non-zero quantity, in order; the cash is that of the account's last row without exchange.", "quantifier": "all files", "why_tests_cant": "all files", "anchors": ["jqtrade/account/trade_gate.py:AnXinDMATradeGate.sync_balance"]}
{"id": "C48", "title": "A task's command line is parsed back to what was given", "statement": "For every order and choice of the documented separate options on the start_task command line, parse_task_info recovers the given name, code, output, environment and debug flag.", "quantifier": "all command lines built from the documented options with values that are not themselves option words", "why_tests_cant": "all command lines", "anchors": ["jqtrade/scheduler/utils.py:parse_task_info"]}
{"id": "C49", "title": "Two tasks with one name never run at the same time", "statement": "In every interleaving of process start, duplicate check, run and exit, two processes started with the same task name are never both past the check.", "quantifier": "all numbers of processes and interleavings", "why_tests_cant": "interleavings of processes", "anchors": ["jqtrade/scheduler/runner.py:_exist_repeated_task", "jqtrade/scheduler/utils.py:get_activate_task_process"]}
{"id": "C50", "title": "stop_task signals exactly the selected tasks", "statement": "--all signals every running task and ignores the other selectors; --pid signals exactly the task with that pid; --name signals exactly the tasks with that name; without a selector nothing is signalled and an error is raised; --force kills, otherwise SIGTERM is sent.", "quantifier": "all process tables and option combinations", "why_tests_cant": "all tables", "anchors": ["jqtrade/__main__.py:stop_task", "jqtrade/scheduler/utils.py:get_activate_task_process"]}
{"id": "C51", "title": "Environment settings given with -e are applied as written", "statement": "For every list of NAME=VALUE settings without ';' or '=' in names and values and without surrounding blanks, the parsed environment maps each name to its last value; PYTHONPATH entries are put in front of sys.path in their given order.", "quantifier": "all settings lists", "why_tests_cant": "all strings", "anchors": ["jqtrade/scheduler/utils.py:parse_env", "jqtrade/scheduler/runner.py:TaskRunner.__init__"]}
{"id": "C52", "title": "A custom configuration file overrides exactly the settings it names", "statement": "A variable SCHEDULER_X (ACCOUNT_X) in the configuration file sets scheduler (account) option X, and nothing else changes.", "quantifier": "all option names", "why_tests_cant": "all names", "anchors": ["jqtrade/scheduler/config.py:_load_config", "jqtrade/account/config.py:_load_config"]}
{"id": "C53", "title": "Datetime to millisecond conversion is faithful", "statement": "Converting a datetime to milliseconds and back gives the datetime to the millisecond, and is order-preserving.", "quantifier": "all datetimes", "why_tests_cant": "all datetimes", "anchors": ["jqtrade/common/utils.py:dt_to_milliseconds", "jqtrade/common/utils.py:milliseconds_to_dt"]}
{"id": "C54", "title": "With no sync_period the account is synchronised at the configured interval at all times of every day", "statement": "Synchronisation events occur every sync_internal seconds throughout every day the process runs.", "quantifier": "all start times and intervals", "why_tests_cant": "depends on the time of day the process starts", "anchors": ["jqtrade/account/account.py:Account._setup_sync_timer"]}
{"id": "C55", "title": "Account functions are refused unless the account module is in use", "statement": "If set_options was not called or was called with use_account=False, every account API call raises InvalidCall and changes nothing; otherwise account calls are not refused for that reason.", "quantifier": "all call sequences", "why_tests_cant": "all call sequences", "anchors": ["jqtrade/scheduler/context.py:Context.account", "jqtrade/scheduler/strategy.py:Strategy.set_options"]}
{"id": "C56", "title": "Order ids: a fresh id never hides an existing order", "statement": "Over any sequence of orders, no order already in the account is lost because a new order was placed.", "quantifier": "all sequences of generated ids", "why_tests_cant": "ids are random 32-bit numbers; collisions are too rare for tests", "anchors": ["jqtrade/common/utils.py:generate_unique_number", "jqtrade/account/account.py:Account.order"]}
{"id": "C57", "title": "One order that cannot be saved does not affect later orders", "statement": "If persisting one order fails, later orders are still accepted, persisted and their ids returned.", "quantifier": "all sequences of orders with arbitrary price objects", "why_tests_cant": "all histories", "anchors": ["jqtrade/account/trade_gate.py:AnXinDMATradeGate.order", "jqtrade/account/trade_gate.py:AnXinDMATradeGate._save_orders"]}
{"id": "C58", "title": "portfolio.position_value is the sum of the position values", "statement": "context.portfolio.position_value equals the sum of the position values of the long positions.", "quantifier": "all portfolios", "why_tests_cant": "all portfolios", "anchors": ["jqtrade/account/portfolio.py:Portfolio.position_value"]}
{"id": "C59", "title": "run_daily runs the function it was given", "statement": "The callback that fires for run_daily(f, t) is f itself.", "quantifier": "all functions and module namespaces", "why_tests_cant": "all namespaces", "anchors": ["jqtrade/scheduler/strategy.py:Strategy._check_handle", "jqtrade/scheduler/strategy.py:Strategy._get_handle"]}
{"id": "C60", "title": "Order status strings and broker status codes are decoded faithfully", "statement": "Every broker status code maps to its documented order status, different codes to different statuses, every other code is rejected; status, side and action names round-trip through their string form.", "quantifier": "all strings", "why_tests_cant": "all strings", "anchors": ["jqtrade/account/trade_gate.py:AnXinDMATradeGate._parse_status", "jqtrade/account/order.py:OrderStatus", "jqtrade/account/order.py:OrderSide", "jqtrade/account/order.py:OrderAction"]}
{"id": "C61", "title": "The saved order book is read back exactly", "statement": "Loading the data file that was saved gives the same order book, every order with every field; a file cut short anywhere is refused and leaves the book empty; two different books are never saved as the same text; and whatever JSON text has the same orders is read as the same book, whatever its white space, escapes and order of fields.", "quantifier": "all order books with serialisable numbers, all strings in their fields, all cut points", "why_tests_cant": "all order books and strings (escapes, surrogate pairs)", "anchors": ["jqtrade/account/trade_gate.py:AnXinDMATradeGate._save_orders", "jqtrade/account/trade_gate.py:AnXinDMATradeGate._load_orders", "jqtrade/account/order.py:Order.json"]}
{"id": "C62", "title": "A running task never stops a differently named task from starting", "statement": "The duplicate check of start_task answers yes exactly when another visible running task has the given name; it never fails because of other processes.", "quantifier": "all process tables and names", "why_tests_cant": "all process tables", "anchors": ["jqtrade/scheduler/runner.py:_exist_repeated_task", "jqtrade/scheduler/utils.py:get_activate_task_process", "jqtrade/scheduler/utils.py:parse_task_info"]}
{"id": "C63", "title": "A whole run synchronises the account and calls each scheduled function exactly at its due times", "statement": "From the set-up of the account's timers and the tasks to the calls made by the bus: whatever the clock reads, whenever the loop wakes up or is stopped, whatever the callbacks do and whichever calls of the user's functions raise, at every moment (1) each source has fired exactly at the first of its due times (every day at its time, every minute of the trading periods, or at the times of the synchronisation timer; without an end date: of the successive windows of EVENT_DAYS_COUNT days, each of which begins on a date read from the clock), none skipped, repeated or added; (2) each firing calls what belongs to its source and nothing else, and is never early; (3) no source is behind: when something fires, whatever was due earlier, or at the same time with a higher priority (account, then every_minute, then the others), has fired before it; (4) with an end date, or while no window begins before the end of the one before it, everything fires in order of scheduled time and priority; (5) if the loop ends by itself and nothing raised, every due time was served.", "quantifier": "all task lists, timers, trading periods in whole seconds, start and end dates, clocks, wake-up orders, stops, effects of callbacks and failing calls", "why_tests_cant": "composition of all scheduling components over all interleavings and unbounded time", "anchors": ["jqtrade/scheduler/strategy.py:Strategy.schedule", "jqtrade/scheduler/event_source.py:EventSourceScheduler.schedule", "jqtrade/scheduler/event_source.py:EventSource.gen_events", "jqtrade/scheduler/loop.py:EventLoop.check_queue", "jqtrade/scheduler/bus.py:EventBus.emit", "jqtrade/account/account.py:Account._setup_sync_timer"]}
{"id": "C64", "title": "What the user sees is what was asked for and what the broker's files say", "statement": "The whole chain from order() through the gate's record, the order book on disk, the broker's two files and their reading to get_orders(): over one day, with any operations, write and save failures, and the process killed at any file operation and started again any number of times (POSIX, ignore_error_line as by default, a broker that appends whole lines of the right length and does not both refuse and update one order): after every synchronisation in which the gate succeeds, every order whose id was returned is shown, with the code, amount, direction, price, style and time that were asked for, as rejected if the result file refuses it, as the last update line says if that can be parsed, and as new if neither file names it; and every order shown, at any moment, is one that was asked for under that id.", "quantifier": "all histories of account operations, failures, kills and restarts of one day, all contents of the broker's files, all call-by-call growths of them", "why_tests_cant": "composition of order placement, persistence, file polling and account merging over all histories and crash points", "anchors": ["jqtrade/account/account.py:Account.order", "jqtrade/account/account.py:Account.sync_orders", "jqtrade/account/trade_gate.py:AnXinDMATradeGate.order", "jqtrade/account/trade_gate.py:AnXinDMATradeGate.sync_orders", "jqtrade/account/trade_gate.py:AnXinDMATradeGate._load_orders", "jqtrade/account/api.py:get_orders"]}
{"id": "C65", "title": "In a whole run the account is what its synchronisations and the user's calls made it, and is synchronised before the tasks", "statement": "For a process whose process_initialize sets up the account once, with any trade gate that may fail at any call, and with user functions that are arbitrary programs calling the API: (1) the set-up of the account succeeds exactly when the gate and the timer can be set up, and leaves the account synchronised; (2) at every moment of the run the account is the result of one sequence of operations, firing by firing: those of one synchronisation for each firing of the timer and those that the function performed for each firing of a task, so that everything proved about histories of operations holds in every run; (3) when a task fires, every synchronisation due at or before its time has been done (without an end date: as long as no day's window begins before the end of the one before it); (4) failing synchronisations and calls never end the loop or make it skip anything; (5) with the built-in gate, after each firing of the timer that can read the broker's files the account shows every order whose id was returned before, by this process (in process_initialize or in a task) or by one before it on the same day that was killed at any point, as asked for and as the files say, with the gate as the options of set_options configure it (files that lines are appended to, POSIX, new ids).", "quantifier": "all gates, user programs, task lists, timers, clocks, wake-up orders, stops and failures", "why_tests_cant": "composition of scheduling, account and gate over all interleavings and all user programs", "anchors": ["jqtrade/account/account.py:Account.setup", "jqtrade/account/account.py:Account._setup_sync_timer", "jqtrade/account/account.py:Account.sync_orders", "jqtrade/account/account.py:Account.sync_balance", "jqtrade/scheduler/strategy.py:Strategy.setup_account", "jqtrade/scheduler/strategy.py:Strategy.wrap_user_callback", "jqtrade/scheduler/bus.py:EventBus.emit"]}
{"id": "C66", "title": "A synchronisation event synchronises the account once, also when set_options is called again", "statement": "After any number of set_options calls in process_initialize, each event of the synchronisation timer calls sync_balance and sync_orders (as far as they were asked for) of the account exactly once and nothing else of the account module.", "quantifier": "all sequences of set_options calls", "why_tests_cant": "depends on what earlier calls left registered on the bus", "anchors": ["jqtrade/account/account.py:Account._setup_sync_timer", "jqtrade/scheduler/strategy.py:Strategy.set_options", "jqtrade/scheduler/bus.py:EventBus.register"]}
{"id": "C67", "title": "start_task runs the strategy file it is given", "statement": "The module that becomes the strategy is made by running the file given with -c, and the file's directory comes first on sys.path for its own imports.", "quantifier": "all paths, contents of the file system, module tables and sys.path", "why_tests_cant": "all file names and all things that can lie next to the file or be imported already", "anchors": ["jqtrade/scheduler/loader.py:Loader.__init__", "jqtrade/scheduler/loader.py:Loader.load", "jqtrade/scheduler/runner.py:TaskRunner.run"]}
{"id": "C68", "title": "process_initialize finds the API in place and the strategy's own names unchanged", "statement": "When process_initialize is called, every name of the documented API in the strategy's module is the framework's function, and every other attribute is what the strategy's file made it; SCHEDULER_SETUP_ACCOUNT in a configuration file decides about the account's functions.", "quantifier": "all strategy modules, configuration files and options", "why_tests_cant": "all namespaces", "anchors": ["jqtrade/scheduler/strategy.py:Strategy.make_apis", "jqtrade/scheduler/strategy.py:Strategy.setup", "jqtrade/scheduler/config.py:setup_scheduler_config"]}
{"id": "C69", "title": "The strategy's code runs only after the start-up checks, and the event loop only after the set-up", "statement": "The strategy's file is run only if it exists, no other visible running task has the name, the environment settings are in force and a given configuration file has been read; the loop runs only after process_initialize returned and all tasks were scheduled, with run_daily and set_options refused from then on; a start that does not reach the loop ends with an exception.", "quantifier": "all process tables, options, configuration files, strategy modules and failures at any step", "why_tests_cant": "all combinations of failing steps", "anchors": ["jqtrade/__main__.py:start_task", "jqtrade/scheduler/runner.py:TaskRunner.__init__", "jqtrade/scheduler/runner.py:TaskRunner.run", "jqtrade/scheduler/strategy.py:Strategy.setup"]}
{"id": "C70", "title": "get_tasks lists exactly the running tasks, as they were started", "statement": "Every visible running task is listed once, in the order of the process list, with its pid and the name, code, log file, environment and debug flag it was started with; nothing else is listed.", "quantifier": "all process tables and command lines", "why_tests_cant": "all process tables", "anchors": ["jqtrade/__main__.py:get_tasks", "jqtrade/scheduler/utils.py:get_activate_task_process", "jqtrade/scheduler/utils.py:parse_task_info"]}
{"id": "C71", "title": "What a task prints and logs goes to its log file, in order", "statement": "With -o, everything the strategy prints without naming a file and every record at or above the level (INFO, with --debug DEBUG) is appended to that file in the order in which it happens, and no other file is touched; without -o it goes to standard output; a file opened by the strategy gets exactly what is printed to it.", "quantifier": "all sequences of prints and records", "why_tests_cant": "all interleavings of prints and records", "anchors": ["jqtrade/scheduler/api.py:strategy_print", "jqtrade/common/log.py:setup_logger", "jqtrade/common/log.py:setup_file_logger", "jqtrade/scheduler/runner.py:TaskRunner.__init__"]}
{"id": "C72", "title": "A failing task function is the last thing a run does, and its exception ends the run", "statement": "In every run, a callback that raises is the last callback called; the run then raises exactly its exception, and nothing is called or changed after it whatever signals, timers or messages arrive. What a run raises came from its last call, from a scheduled function that does not exist (TypeError at its first firing) or from an event source. If a source cannot be made or asked, the set-up raises the error of the first such source.", "quantifier": "all tasks, all behaviours of the callbacks, all executions of the loop and all continuations", "why_tests_cant": "all interleavings of failures with timers, signals and other events", "anchors": ["jqtrade/scheduler/loop.py:EventLoop.handle_message", "jqtrade/scheduler/loop.py:EventLoop.run", "jqtrade/scheduler/bus.py:EventBus.emit", "jqtrade/scheduler/event_source.py:EventSourceScheduler.schedule", "jqtrade/scheduler/strategy.py:Strategy.schedule"]}
{"id": "C73", "title": "A command line starts exactly the task that it describes", "statement": "start_task runs exactly for the lines 'start_task ...' that give a name and a code and otherwise only its options, in any order and any way of writing (letter, long word, unambiguous beginning of it, value joined or apart), without asking for help; the task has the value given last for each option. No other line starts a task.", "quantifier": "all lists of argument words without the word --", "why_tests_cant": "all argument lists", "anchors": ["jqtrade/__main__.py:main", "jqtrade/__main__.py:start_task"]}
{"id": "C74", "title": "What other commands read from the process list is what a task runs with", "statement": "For every accepted start_task line, the name, code, log file, environment and debug flag that get_tasks, stop_task and the duplicate check read from the process's command line are the ones the task runs with.", "quantifier": "all accepted command lines, with any interpreter words in front that are not option words", "why_tests_cant": "all ways of writing a command line", "anchors": ["jqtrade/__main__.py:main", "jqtrade/scheduler/utils.py:parse_task_info", "jqtrade/scheduler/runner.py:TaskRunner._exist_repeated_task"]}
{"id": "C75", "title": "A command runs only if it was asked for, and every command line gets an answer", "statement": "Tasks are started, listed or stopped only if the first word is that command; with -V in front no command runs; stop_task gets the values given last, with a pid only if it is an integer; every other command line gets a message about the usage.", "quantifier": "all lists of argument words without the word --", "why_tests_cant": "all argument lists", "anchors": ["jqtrade/__main__.py:main", "jqtrade/__main__.py:stop_task"]}
{"id": "C76", "title": "Options are understood in full or refused, and the last understood call decides", "statement": "set_options accepts exactly: for periods, lists of pairs of datetime.time objects or texts h:m:s in range (or a false value); for the interval, what float accepts. A call with any other value raises and changes nothing. After process_initialize, the options in effect are those of the last understood call, and of no other, whether or not that call later failed to set up an account.", "quantifier": "all option values, all sequences of run_daily and set_options calls in process_initialize, caught or uncaught failures", "why_tests_cant": "all values and all call sequences", "anchors": ["jqtrade/scheduler/strategy.py:Strategy.set_options", "jqtrade/common/utils.py:parse_time"]}
{"id": "C77", "title": "Trading periods given to set_options are the ones by which tasks run", "statement": "Trading periods given by set_options, as texts or times, in whatever place of process_initialize, determine open, close and every_minute for all tasks; periods that are not given come from the configuration, with the same meaning.", "quantifier": "all bodies of process_initialize, all periods, all tasks", "why_tests_cant": "all placements of the calls and all ways of writing periods", "anchors": ["jqtrade/scheduler/strategy.py:Strategy.schedule", "jqtrade/scheduler/event_source.py:EventSource", "jqtrade/scheduler/strategy.py:Strategy.set_options"]}
{"id": "C78", "title": "What process_initialize says is what the process does", "statement": "For every process_initialize that returns, with any number of calls of set_options: the process starts its loop with the account as process_initialize left it (for a single call of set_options: set up, synchronised, and having undergone what process_initialize did to it); from then on exactly the tasks added with run_daily run, at the times they ask for by the trading periods given (or else configured), and the accounts that were made are synchronised at the times of the intervals and periods given (or else configured), before the tasks due at the same time, until the end date if there is one (without an end date the order of times and of synchronisation and tasks is claimed as long as no day's window begins before the end of the one before it).", "quantifier": "all programs for process_initialize, all programs for the tasks, all options and configurations, all gates, all clock readings", "why_tests_cant": "all programs, options, gates and clocks, over runs of any length", "anchors": ["jqtrade/scheduler/strategy.py:Strategy.setup", "jqtrade/scheduler/strategy.py:Strategy.set_options", "jqtrade/scheduler/strategy.py:Strategy.schedule", "jqtrade/account/account.py:Account.setup", "jqtrade/account/account.py:Account._setup_sync_timer"]}
{"id": "C79", "title": "Times in stored orders and in the broker's reports are read as the moments they write", "statement": "parse_dt accepts a text exactly if it writes a date and time that exist in the calendar, and gives that moment; the time of an update line with 14 digits is read as exactly the moment of its digits, and every other line with a full date and six digits of time is refused.", "quantifier": "all texts, all dates and times", "why_tests_cant": "all texts; leap years and month ends over all years", "anchors": ["jqtrade/common/utils.py:parse_dt", "jqtrade/account/trade_gate.py:AnXinDMATradeGate._update_order"]}
{"id": "C80", "title": "Quantities in the broker's reports are read as exactly the whole numbers they write", "statement": "A text is taken for an amount exactly if it writes a whole number (sign, digits, single underscores between digits, white space around), and gives that number; any other text is refused.", "quantifier": "all texts", "why_tests_cant": "all texts", "anchors": ["jqtrade/account/trade_gate.py:AnXinDMATradeGate._update_order"]}
{"id": "C81", "title": "A callback that stays registered while an event is emitted is called exactly as often as it is registered", "statement": "While an event is emitted, callbacks may register and unregister callbacks; a callback that nobody registers or unregisters meanwhile is called exactly as often as it is registered, the emission ends, and no exception comes from the bus itself.", "quantifier": "all buses, all behaviours of callbacks, all events", "why_tests_cant": "all behaviours of callbacks at every point of the emission", "anchors": ["jqtrade/scheduler/bus.py:EventBus.emit", "jqtrade/scheduler/bus.py:EventBus.register", "jqtrade/scheduler/bus.py:EventBus.unregister"]}
{"id": "C82", "title": "The broker's files are read right in any encoding, and an update that cannot be decoded costs only itself", "statement": "A file that is a text in the encoding it is opened with is read exactly as that text, whatever the encoding and the size of the chunks it is read in; with ignore_error_line, bytes that cannot be decoded cost no more than the line they are in; and a synchronisation always ends.", "quantifier": "all encodings whose decoder starts every character afresh, all chunk sizes, all files, all order books, all remembered positions", "why_tests_cant": "all byte contents and positions relative to chunk borders; the failure needs a broken byte or a character cut in two at the moment of the poll", "anchors": ["jqtrade/account/trade_gate.py:AnXinDMATradeGate.sync_orders"]}
{"id": "C83", "title": "Accounts replaced by a later set_options do not disturb the account in use", "statement": "After set_options has been called again in process_initialize, the account objects made before are still called at synchronisation events; whatever they ask of the trade gate, the account in use holds the same orders and balance, and user functions see the same answers, as if the replaced accounts had never been called; and when the last call switches the account off, those events change nothing.", "quantifier": "all gates, all numbers of replaced accounts, all user functions, all sequences of events", "why_tests_cant": "all numbers of calls of set_options and all gates", "anchors": ["jqtrade/scheduler/strategy.py:Strategy.setup_account", "jqtrade/account/account.py:Account.setup", "jqtrade/account/account.py:Account.sync_orders", "jqtrade/account/account.py:Account.sync_balance", "jqtrade/scheduler/context.py:Context.trade_gate"]}
{"id": "C84", "title": "A strategy sees the right times", "statement": "While the functions of an event run, context.strategy_dt is exactly the datetime at which the event was due; before the first event it is None; it never goes back and is never later than context.current_dt unless the clock is set back. context.current_dt is the current time cut to milliseconds, at most a quarter of a microsecond ahead, and no function runs earlier than that before its time.", "quantifier": "all processes, all executions of the loop, all clock readings until the year 2106, all float roundings with the stated error", "why_tests_cant": "all clock readings: the rounding of time.time() * 1000 is ahead only within nanoseconds before a millisecond", "anchors": ["jqtrade/scheduler/loop.py:EventLoop.current_dt", "jqtrade/scheduler/loop.py:EventLoop.strategy_dt", "jqtrade/scheduler/loop.py:EventLoop.get_current_time", "jqtrade/scheduler/context.py:Context.strategy_dt", "jqtrade/scheduler/api.py:UserContext.strategy_dt", "jqtrade/scheduler/api.py:UserContext.current_dt"]}
{"id": "C85", "title": "A refused cancellation is told exactly once", "statement": "Every line of the broker's result file that says that a cancellation was refused is written to the log exactly once, in order, as soon as a synchronisation has read it; an order that the account did not know is logged exactly once when a synchronisation adds it, marked by whether an earlier synchronisation was completed.", "quantifier": "all result files that grow by whole lines, all sequences of operations, all failing synchronisations; for the account all gates", "why_tests_cant": "depends on which synchronisations got through before: the message of the first one is suppressed", "anchors": ["jqtrade/account/trade_gate.py:AnXinDMATradeGate.sync_orders", "jqtrade/account/account.py:Account.sync_orders"]}
{"id": "C86", "title": "What a strategy prints shows its orders, positions and portfolio", "statement": "Printing an order or a position shows its current values, so that two with the same text agree in everything the text mentions, and every order can be printed; printing the portfolio or the result of get_orders() shows the cash and those values too.", "quantifier": "all orders and positions whose codes and ids have no commas, all accounts, all ways of writing numbers that tell numbers apart", "why_tests_cant": "all values of all fields; the objects in a dictionary are shown by their addresses, whatever they hold", "anchors": ["jqtrade/account/api.py:UserOrder.__str__", "jqtrade/account/api.py:UserPosition.__str__", "jqtrade/account/portfolio.py:Portfolio.__str__", "jqtrade/account/order.py:OrderStyle.__str__"]}
{"id": "C87", "title": "The log can be read and sorted by time", "statement": "Every line of the log begins with the time of its record, from which the time can be read back, and sorting the lines as texts sorts the records by time.", "quantifier": "all records, all messages, all times of the years 1000 to 9999", "why_tests_cant": "all messages, in particular those with several lines", "anchors": ["jqtrade/common/log.py:SystemLogFormatter.formatTime", "jqtrade/common/log.py:setup_logger", "jqtrade/common/log.py:setup_file_logger"]}
{"id": "C88", "title": "A refused order is shown with the broker's reason, and nothing is shown that was not reported", "statement": "At all times every value that an order shows (status, entrust time, confirm id, filled and canceled quantity, sums, message) is that of a new order or was written by the broker about this very order; after a successful synchronisation an order that the broker has refused is shown as rejected with the broker's message, and an order that the broker has updated shows the text of its last update, whatever the texts.", "quantifier": "all sequences of operations, failures, crashes and restarts of a day, all contents of the broker's files, all messages", "why_tests_cant": "all messages (with commas, too) and all sequences of reports that differ in the message only", "anchors": ["jqtrade/account/order.py:Order.__eq__", "jqtrade/account/account.py:Account.sync_orders", "jqtrade/account/trade_gate.py:AnXinDMATradeGate.sync_orders", "jqtrade/account/trade_gate.py:AnXinDMATradeGate._update_order"]}
{"id": "C89", "title": "The portfolio in the course of time", "statement": "After any sequence of account operations, each cash figure is the last figure other than 0 that a complete balance report gave (0 if none did); there are no positions before the first complete report, and afterwards they are those of the last complete report, with the closeable amount of a long position reduced (not below 0) by the orders to sell that were accepted since; failed and incomplete reports change nothing.", "quantifier": "all trade gates (any reports, any exceptions), all sequences of operations, all codes", "why_tests_cant": "unboundedly many operations and reports, interleaved with failures at any of them", "anchors": ["jqtrade/account/account.py:Account.sync_balance", "jqtrade/account/account.py:Account.order", "jqtrade/account/position.py:Position.on_order_created", "jqtrade/account/portfolio.py:Portfolio"]}
{"id": "C90", "title": "Which exception is raised says what was wrong", "statement": "For the checks of what users and files give - the time of a task, trading periods, a function to be run daily, options, the file of a strategy, an order to be sent, a stored order, the broker's tables, a reported balance, a report about an order, the broker's files read strictly, the command of a process - each kind of exception is raised exactly for one kind of mistake, stated without reference to the checking code, and no other kind is raised.", "quantifier": "all texts, dictionaries, files and values", "why_tests_cant": "the inputs are unbounded texts; several mistakes at once decide by order of checking; tests try a few wrong inputs each", "anchors": ["jqtrade/scheduler/event_source.py:TimeExprParser", "jqtrade/scheduler/event_source.py:EventSource.expr_to_time", "jqtrade/account/order.py:Order.load", "jqtrade/account/trade_gate.py:AnXinDMATradeGate.order", "jqtrade/account/trade_gate.py:AnXinDMATradeGate._read_csv", "jqtrade/account/trade_gate.py:AnXinDMATradeGate._update_order", "jqtrade/account/trade_gate.py:AnXinDMATradeGate.sync_balance", "jqtrade/account/account.py:Account.sync_balance", "jqtrade/scheduler/utils.py:parse_task_info", "jqtrade/scheduler/strategy.py:Strategy.run_daily", "jqtrade/scheduler/strategy.py:Strategy.set_options", "jqtrade/scheduler/strategy.py:Strategy.setup_account", "jqtrade/scheduler/api.py:strategy_print"]}
{"id": "C91", "title": "Tasks that share the broker's directory do not disturb each other", "statement": "Several tasks whose data files and order ids are different share the order, cancel, result and update files of a day, to which the broker appends whole lines with all their fields. Whatever the other tasks do and in whatever order the steps of the tasks and of the broker come, a task gets the same answers, has the same orders, positions and cash and the same data file as if it were alone and the broker had written only about its orders, also after restarts; no task changes a record of another; what happened on other days makes no difference. Tasks whose names differ and have no slash have different data files.", "quantifier": "all numbers of tasks, all sequences of calls, restarts and broker lines, all failures of writing and saving", "why_tests_cant": "needs two executions compared, over all interleavings of processes that share files; tests run one task in an empty directory", "anchors": ["jqtrade/account/trade_gate.py:AnXinDMATradeGate.setup", "jqtrade/account/trade_gate.py:AnXinDMATradeGate.sync_orders", "jqtrade/account/trade_gate.py:AnXinDMATradeGate._save_orders", "jqtrade/account/trade_gate.py:AnXinDMATradeGate._load_orders", "jqtrade/account/trade_gate.py:AnXinDMATradeGate._write"]}
{"id": "C92", "title": "The order and cancel files of a day are exactly what all tasks asked the broker", "statement": "Several tasks share the order and cancel files of a day. Whatever they do and in whatever order their calls come, also with restarts and with files that cannot be opened or locked, the order file is the header once and then whole records: one for every order() whose code has a broker's code, if the gate is configured and the file can be opened and locked, in the order of the calls, saying what was asked, and none else (so every id that order() returned has its record); the cancel file is the header and one record for every cancel of an order that the task knows while the file can be written. The calls come one at a time. Reading such a file line by line and splitting at commas gives back the records, if no field has a comma or line end. Over several days, each day has its own files, which stay as they are on the days before and after (without a disk that fills up in mid-line, and not on Windows).", "quantifier": "all numbers of tasks, all sequences of calls, restarts, broker lines and failures of opening, locking and saving", "why_tests_cant": "a statement about the whole history of several processes in one file; tests look at the file of one task after one call", "anchors": ["jqtrade/account/trade_gate.py:AnXinDMATradeGate.order", "jqtrade/account/trade_gate.py:AnXinDMATradeGate.cancel_order", "jqtrade/account/trade_gate.py:AnXinDMATradeGate._write"]}
{"id": "C93", "title": "Waiting for the lock of the order file", "statement": "A call of _write that finds the file locked tries again: as long as the lock is taken, the time-out is not over and nothing else fails, it waits and tries; it returns after the first attempt that gets the lock, having added its record exactly once, with the header in front exactly if the file is empty then (whatever others wrote while it waited); it raises TimeOut, having added nothing, at the first attempt that finds the lock taken when the time-out is over; and it ends after at most time-out / interval + 1 attempts.", "quantifier": "all sequences of attempts (any holders of the lock, any clock readings, any failures of opening, locking and writing), all texts added by others between the attempts, all time-outs and intervals", "why_tests_cant": "unboundedly many attempts with other writers in between; tests have no second process and no clock", "anchors": ["jqtrade/account/trade_gate.py:AnXinDMATradeGate._write", "jqtrade/account/trade_gate.py:AnXinDMATradeGate.setup"]}
{"id": "C94", "title": "The data of a task is kept in its runtime directory", "statement": "The trade gate keeps the data file of a task in the directory data of the runtime directory that the strategy makes and reports, whatever path the option runtime_dir gives, and a task that is started again with the same options finds its data file wherever it is started from if that directory does not depend on it.", "quantifier": "all paths, all working directories, all home directories, all task names and days", "why_tests_cant": "all paths with . and .. and repeated slashes, all working directories; tests run in one directory with one path", "anchors": ["jqtrade/scheduler/strategy.py:Strategy.set_options", "jqtrade/account/trade_gate.py:AnXinDMATradeGate.setup", "jqtrade/scheduler/config.py"]}
{"id": "C95", "title": "A restart with the right encoding shows what was skipped", "statement": "If the broker's files can be decoded with the encodings that the gate uses after a restart, the first synchronisation after it shows every order of the data file as its last readable update says, or refused with the message of the last refusal if there is no update about it, whatever was skipped or lost before; the option file_encoding sets these encodings.", "quantifier": "all encodings, all files of any length, all sizes of chunks, all data files, everything that happened before the restart", "why_tests_cant": "two processes, arbitrary bytes, every encoding", "anchors": ["jqtrade/account/trade_gate.py:AnXinDMATradeGate.sync_orders", "jqtrade/account/trade_gate.py:AnXinDMATradeGate._load_orders", "jqtrade/account/trade_gate.py:AnXinDMATradeGate.setup"]}
{"id": "C96", "title": "The trade gate works with the settings that it was given", "statement": "If setup of the built-in trade gate returns, the account works with the gate that the options describe: every setting is the one given, or else the documented default, and the files of the gate are different files. setup returns exactly if the order directory exists, the data directory exists or can be made, and the arguments for retrying are valid; a setting that is not supported is refused. If setup raises and the exception is caught, no order is sent and nothing that was stored is lost.", "quantifier": "all options of any type, all states of the file system, all task names and days, all histories of account operations with all environments after it, including after a caught exception of setup", "why_tests_cant": "values of every type for every option, directories that come and go between calls, histories of any length after a set-up that failed half-way", "anchors": ["jqtrade/account/trade_gate.py:AnXinDMATradeGate.setup", "jqtrade/account/trade_gate.py:AnXinDMATradeGate.__init__", "jqtrade/account/trade_gate.py:AnXinDMATradeGate.order", "jqtrade/account/trade_gate.py:AnXinDMATradeGate._load_orders", "jqtrade/common/utils.py:simple_retry"]}
{"id": "C97", "title": "Prices and money are kept to the last digit", "statement": "Numbers of at most fifteen digits pass through the gate unchanged although they are binary floats on the way: a limit price stands in both price columns of the order file as the same decimal number that the strategy wrote; the balance and average price of an order, the cash, and the cost, price and value of positions are exactly the numbers in the broker's files when these have at most four (prices: three) places, also if the reader of a table is off by a little; the locked cash is the exact difference. Every number in an order book, also nan, infinite ones and -0.0, is saved in the data file and read back the same. No price can break a record of the order file. float accepts exactly the texts of the grammar, numbers are equal exactly if their values are, and a price is written with a power of ten only below 0.0001 and from 10^16 on.", "quantifier": "all decimal numbers of at most fifteen digits with exponents from -290 to 290, all doubles, all order books, all texts of numbers", "why_tests_cant": "2^64 doubles and infinitely many texts; a rounding error in one digit shows only for particular numbers", "anchors": ["jqtrade/account/trade_gate.py:AnXinDMATradeGate.order", "jqtrade/account/trade_gate.py:AnXinDMATradeGate.sync_balance", "jqtrade/account/trade_gate.py:AnXinDMATradeGate._update_order", "jqtrade/account/trade_gate.py:AnXinDMATradeGate._save_orders", "jqtrade/account/trade_gate.py:AnXinDMATradeGate._load_orders"]}
{"id": "C98", "title": "Every day stands alone", "statement": "Of any sequence of processes of a task, each ending on the day on which it was started, those of one day get the same answers and have the same orders, positions, cash and files of that day as if there had been no other day, whatever the files of other days contain; the files of a day are not changed on another day; the first process of a day begins without orders.", "quantifier": "all sequences of processes over all days, all options, all histories of account operations, everything the broker and other programs do to the files of the day, all failures of writing", "why_tests_cant": "months of days with any number of processes on each; tests have one day", "anchors": ["jqtrade/account/trade_gate.py:AnXinDMATradeGate.setup", "jqtrade/account/trade_gate.py:AnXinDMATradeGate._load_orders", "jqtrade/account/trade_gate.py:AnXinDMATradeGate._save_orders", "jqtrade/account/trade_gate.py:AnXinDMATradeGate.order", "jqtrade/account/trade_gate.py:AnXinDMATradeGate.sync_orders"]}
{"id": "C99", "title": "What a strategy reads is what was asked and reported", "statement": "Every attribute of an order, a position and the portfolio that a strategy can read has the value that was asked of order() or reported by the gate: right after order() returns all sixteen attributes of the order say what was asked and nothing of it is done; after a synchronisation the attributes of an order say what the last report of it says, and with the built-in gate what the broker's files say; a position says what the last complete balance report says of it, its closeable amount less what was sold since, and a code that is not held shows 0; the cash is what was reported last. Every attribute can be read.", "quantifier": "all gates, all requests, all histories of account operations, all reports, all names of attributes; for the built-in gate all files of the broker, with crashes and restarts", "why_tests_cant": "histories of any length and every combination of absent fields in a report; tests read a few attributes after one call", "anchors": ["jqtrade/account/api.py:UserOrder", "jqtrade/account/api.py:UserPosition", "jqtrade/account/api.py:UserPositionDict", "jqtrade/account/portfolio.py:Portfolio", "jqtrade/account/position.py:Position", "jqtrade/account/order.py:Order", "jqtrade/scheduler/context.py:Context.portfolio"]}
