# Formal model of henrythasler/telescope-sync in Lean 4 — design

## 1. Layout

| directory | content |
|---|---|
| `lean/Verif/C/` | the C/C++ substrate: outcome monad with undefined behaviour as a distinct outcome, byte memory, `strtol/strtoul/strtof`, IEEE rounding on rationals, target platform |
| `lean/Verif/Model/` | the model, function by function, each definition citing file and lines in /repo |
| `lean/Verif/Spec/` | small independent specifications the property theorems talk about (wire formats, calendar, command tables, Delaunay property, decimal text, histories) |
| `lean/Verif/Lemmas/` | helper lemmas (not claims) |
| `lean/Verif/Props/` | the property theorems (`Cxx_…`), one file per area, with non-vacuity examples beside them |
| `properties.jsonl`, `MANIFEST.json` | the English properties; which theorems prove them |
| `AXIOMS.md` | the axioms each property theorem depends on (`#print axioms`, generated by `tools/axioms.py`) |
| `seeded/LOG.jsonl` | wrong programs tried against the theorems |
| `tools/` | scripts that generate the lists and run the mutations |

Paths of code below are relative to `/repo/esp32-telescope-sync` unless they start with `node-server` or `python-server`.

## 2. Modelling decisions

* **Undefined behaviour is an outcome.** A function that can run into UB returns `C α = Except Stop α`.
  `Stop.ub r` records the reason (out-of-bounds read/write, float-to-integer conversion out of range,
  use of an indeterminate value). `Stop.nonfinite` means the run produced an infinity or NaN and left the
  modelled domain; no theorem claims anything about what happens after it.
* **Platform.** `Platform` carries what differs between the two build targets of `platformio.ini`:
  width of `size_t`/`long` (32 on the ESP32, 64 on the native test host), signedness of `char`,
  `ARDUINO` defined or not, and what an out-of-range float-to-unsigned conversion does
  (`strict`: UB as in the standard; `wrap`: reduction modulo 2^n, which is what the unit tests of the repository
  observe on the native host). Theorems quantify over the platform unless the property is about one of them.
* **Numbers.** Integers of the code are `Nat`/`Int`/`UIntN` as appropriate, with explicit wrap where the code wraps.
  `double` is an exact ordered field (`ℝ` for trigonometry, an arbitrary ordered field `K` for codecs and alignment, `ℚ` for
  executable examples). Where the rounding matters for the property it is modelled: the NMEA parser, the Julian day, the
  location reply, the heading filter, (C66) the number conversions of both protocols (C69) the coordinate conversions, (C70) the sidereal time (C71) the one-star alignment, (C73) the pitch, (C78) the matrices of two and three stars (C79) the complete aligned telescope (C80) sessions (C82) the triangulation (C83) the gyroscope functions and (C84, C85) the firmware as a whole use rationals with every operation rounded by an exact model of IEEE binary32 /
  binary64 round-to-nearest-even (`C/Float.lean`); the `float` variables of the point-in-triangle test go through a rounding
  parameter. The theorems about triangulation indices hold for arbitrary answers of the geometric tests, hence for any
  arithmetic.
* **External calls** become inputs: `qsort` is an arbitrary sorting permutation, `micros()` an input,
  sensors, sockets and MQTT messages are inputs, SPIFFS is a finite map from names to contents.
* **Histories.** The firmware is a transition system (`Model/Main.lean`): one event is one call of `loop()` with everything
  it reads from outside, one Bluetooth callback, or an arriving/leaving TCP connection. Properties over "all histories" are
  theorems about every finite list of events since power-up. `Model/Main.lean` is parametric in the telescope (what it proves
  holds whatever the telescope computes); `Model/System.lean` plugs in the real one.

## 3. What is modelled, file by file

| code | model | not modelled |
|---|---|---|
| `lib/telescope/src/telescope.cpp`, `telescope.h` | `Model/Coord.lean`, `Model/Codec.lean`, `Model/Telescope.lean` — all functions used by the firmware; also in IEEE arithmetic (`Model/Codec64.lean`, `Model/Coord64.lean`, `Model/Telescope64.lean`, `Model/Session64.lean`) | `fromHorizontalPosition` etc. only through the static functions they call |
| `lib/alignment/src/alignment.cpp` | `Model/Align.lean`, `Model/Triangulate.lean` — all functions; `Model/Telescope64.lean` once more in IEEE arithmetic; `Model/Shared.lean`, `Model/SharedWords.lean` access by access | — |
| `lib/linalg` | `Model/Linalg.lean` (3×3, used by the alignment), `Model/Bla.lean` (all sizes, storage classes, all operators), `Model/Sparse.lean` (sparse storage), `Model/Linalg64.lean` (3×3 in IEEE double arithmetic) | rounding except for 3×3 |
| `lib/gnss/src/gnss.cpp` | `Model/Gnss.lean` — all functions | — |
| `lib/nexstar/src/nexstar.cpp` | `Model/NexStar.lean` — `handleRequest` complete | serial log text (its memory reads are modelled) |
| `lib/helper/src/helper.cpp` | `Model/Helper.lean` — all functions; `Model/Sidereal64.lean` sidereal time in IEEE arithmetic | — |
| `lib/ledmanager` | `Model/Led.lean` | pin I/O itself |
| `lib/persistency` | `Model/Persist.lean` | flash wear, SPIFFS internals |
| `lib/lsm6wrapper` | `Model/Imu.lean` (accelerometer path), `Model/Pitch.lean`, `Model/Imu32.lean` (the same with rounding), `Model/Gyro32.lean` | I2C driver, temperature (not used by the firmware) |
| `src/main.cpp` `setup`, `loop`, `mqttCallback`, `onBluetoothData`, `checkForConnections`, `reconnectMQTTClient` | `Model/Setup.lean`, `Model/Sched.lean`, `Model/Heading.lean`, `Model/Net.lean`, `Model/Printf.lean`, `Model/Main.lean`, `Model/Link.lean`, `Model/System.lean`, `Model/Race.lean`; with all arithmetic rounded `Model/Firmware64.lean` | serial logging, WiFi callbacks; `onBluetoothData` is atomic with respect to `loop()` except in `Model/Race.lean` (C74: transmit buffer), `Model/Shared.lean` (C76: telescope object) and `Model/SharedGnss.lean` (C77: GNSS object) |
| `node-server/src/server.ts` | `Model/Node.lean` (connection handler, codec, `handleRequest`, calibration; doubles with IEEE rounding), `Model/NodeCoord.lean` | console output, `toHorizontalPosition`, `setPosition`, the commented-out timer |
| `python-server/server.py` | `Model/Python.lean` — `handle` | console output, the socket server itself |
| `lib/mqttbroker`, `lib/bnodata`, `lib/lsm-lis` | — | only logging, or unused by the firmware |

## 4. Per property: model and proof

| id | modelled | proof |
|---|---|---|
| C01-C05 | `Model/Codec.lean`: `packPosition`, `unpackPosition` over a byte memory, conversions with UB | unfolding + byte arithmetic; round trip from a little-endian encode/decode lemma and a floor bound |
| C06-C10, C12, C13 | `Model/NexStar.lean`: `handleRequest` complete, `snprintf`, `strtoul` | case analysis over the command; hex encode/decode round trip by induction |
| C11 | `Model/Main.lean`: histories of the whole firmware | invariant by induction over histories |
| C14-C22 | `Model/Gnss.lean`: `strtof` with binary32 rounding, C-string reads past the NUL are UB | list lemmas, field-by-field symbolic execution of the parser on the grammar of well-formed sentences, rounding error lemmas; witnesses by kernel evaluation |
| C23-C26 | `Model/Helper.lean` | floor arithmetic; induction over the calendar; parity of bit lists |
| C27, C46, C48, C49 | `Model/Heading.lean`, `Sched.lean`, `Led.lean`, `Net.lean` | monotonicity of rounding; modular arithmetic; invariants |
| C28-C30 | `Model/Coord.lean` over `ℝ`, `atan2 y x = Complex.arg (x + y i)` | rotation is an involution; uniqueness of spherical coordinates |
| C31-C33, C39, C40 | `Model/Align.lean` | invariants by induction over histories; C40 by a simulation between the reset and a new object |
| C34-C37 | `Model/Linalg.lean` and `Model/Align.lean`, `Model/Telescope.lean` | symbolic execution of the pivoting cases, field arithmetic; C37 composes with C28/C29 and, for many stars, with C42 |
| C38 | `Model/Linalg.lean` (LU decomposition loops for 3x3, with the out-of-bounds element as an arbitrary stray value) | case analysis over the permutations |
| C41, C43 | `Model/Triangulate.lean` with arbitrary geometric oracle | loop invariants |
| C42 | the same with the exact in-circle test | the Bowyer-Watson step as a mesh invariant: edges are used by at most two triangles, boundary is the supertriangle; covering degree of a point is locally constant, hence one; empty circles by the power-of-a-point argument; success of the insertion from genericity only |
| C44, C45 | `Model/Align.lean` | induction over the triangle list; area identity; rounding error bound; float witness by kernel evaluation |
| C47, C50-C53, C57 | `Model/Main.lean`, `Model/Printf.lean` | facts about every task (`Lemmas/MainStep.lean`), induction over histories, length of `%.*f` text |
| C54 | `Model/Persist.lean`: file system as a map, crash points as intermediate states | case analysis |
| C55, C56 | `Model/Imu.lean`, `Model/Pitch.lean` | ring-buffer invariant by induction; polar coordinates |
| C58 | `Model/System.lean`: the firmware with the real telescope | every event is a sequence of telescope calls (`Lemmas/System.lean`), then C37, C42, C50, C51 and the codec theorems; `SystemStill.lean`: events other than sync, goto and reset keep the alignment, so the statement also holds across any number of task runs while the telescope points at the star; `SystemDemo.lean`, `SystemStillDemo.lean`: histories that meet the hypotheses |
| C59, C60 | `Model/Node.lean`: chunks of a connection, Node `Buffer` reads/writes with `RangeError`, exact IEEE binary64 rounding of every operation | induction over chunks; grid argument (all values are multiples of 2^-k below 2^53) for exact right ascension, rounding error bound for the declination; comparison with the firmware's reply table |
| C61 | `Model/NodeCoord.lean` over `ℝ` | the two formulas agree by uniqueness of spherical coordinates |
| C62 | `Model/Python.lean`: `bytes.strip`, `struct.unpack` | byte arithmetic; interval characterisation of the lost declinations |
| C63 | `Model/System.lean`; the hazards are listed in `Spec/Safety.lean` | progress and preservation: a safe state (buffer lengths, terminating NUL, ring buffer, ranges of heading, pitch, temperature and GNSS data, alignment invariants) completes every event without hazard and stays safe (`Lemmas/Safety*.lean`); two hazards are shown to stop the firmware |
| C64 | `Model/Main.lean` (loop), readings as a function of the events (`Spec/Sensors.lean`) | induction over histories: heading and ring buffer are folds of the readings (`Lemmas/Sensors.lean`), then C27, C56; C63 shows that the demonstration history runs |
| C65 | `Model/Main.lean` + `Model/System.lean`; texts in `Spec/Report.lean` | C64 (orientation at report time), C30 (same direction), C53 (point lists), C57 (numbers); the demonstration history of C64 reaches a report |
| C66 | `Model/Codec64.lean`: the two codecs with every operation rounded (`fl`), `long double` a parameter format | decoding never rounds (dyadic numerators below 2^53); error bound of rounding and monotonicity for encoding; exact evaluation on decoded numbers |
| C67 | `Model/Setup.lean`: `setup()` with the compile-time switches and all answers of the hardware as parameters, calls recorded in order | closed form of the result; induction over the waiting loop; an invariant of the main loop for the outputs a configuration allows |
| C68 | `Model/Link.lean`: the firmware of `Model/Main.lean` with a connection that can be lost and re-established, the queue of messages for the device (its own publications included) | potential function: replies sent + resets on their way; induction over histories; refinement of `Model/Main.lean` |
| C69 | `Model/Coord64.lean`: both conversions with every operation rounded (`fl b64`) and the library functions as parameters | forward error analysis (`Lemmas/Coord64.lean`): absolute error of each step in units of 2^-53, the square root near zero by a relative bound, angles through `Complex.arg`; ranges by monotonicity of rounding and representability |
| C70 | `Model/Sidereal64.lean`: `getLocalSiderealTimeDegrees` with every operation rounded, `long double` a parameter format | forward error analysis in units of 2^-53; `f_mod`: a double below a multiple of 360 is below it by an ulp, which the rounded quotient still shows |
| C71 | `Model/OneStar64.lean`: first `addReferencePoint`, the one-star matrix, `getCalibratedOrientation` of both classes, every operation rounded | `C69` twice, the rounding error of the shift and of `f_mod`, from Cartesian components back to angles by a sine bound, then rounding to wire units |
| C72 | `Model/Bla.lean`: the matrix library for all sizes; arrays with a size whose elements are unreadable before they are written; views for the storage classes | Hoare rule for loops; invariant of Crout's method with partial pivoting (products of the factors = permuted matrix for the columns done), a kernel vector when no pivot exists, sign of the permutation for the determinant |
| C73 | `Model/Imu32.lean`: mean, calibration and pitch with every operation rounded, on the ring buffer of `Model/Imu.lean` | rounding error of the running sums by induction over the loop; Cartesian perturbation of the angle; sine bound back to degrees |
| C74 | `Model/Race.lean`: programs of single byte accesses for both tasks, arbitrary schedules | safety invariant over all schedules; invariant of a message being built and sent (each cell own or written by the other task); constructed schedules for the negative part; simulation: the programs run alone are the steps of `Model/Main.lean` |
| C75 | `Model/Sparse.lean`: the hash table with open addressing, references, reads and writes | representation invariant (live items are reached by probing without meeting an unused item) over all histories; counting for the full table; direct invariant for zeros; counterexample for every table size |
| C76 | `Model/Shared.lean`: the methods of `Alignment` and `Telescope` as programs of single member accesses, arbitrary schedules of two tasks; members never written are `none` | weakest preconditions with volatile members: the programs run alone compute what `Model/Align.lean` says (triangulation included); rely/guarantee rules (set of values each member may hold) for positions, orientations and resets; safety invariant (object well-formed at every step, triangles known to be written) for one synchronising task; constructed schedules for the negative part |
| C77 | `Model/SharedGnss.lean`: a sentence as the sequence of its assignments; every read of the other task at a moment of its own, in any order | the assignments in one go are `fromBuffer`; no member is assigned twice per sentence, so a read gives the value before or after the sentence; constructed moments for the negative part |
| C78 | `Model/Linalg64.lean`: `Model/Linalg.lean` once more with every `double` operation rounded, the corners of two and three stars, the application of the matrix | backward error analysis: scaled pivoting bounds multipliers and pivots (`Lemmas/Linalg64Lu`), residuals of every column of the inverse (`Lemmas/Linalg64Run`), forward error through the barycentric coordinates (`Lemmas/Linalg64Acc`, `Linalg64Tri`), perturbation of the rounded third corner (`Linalg64Line`); kernel evaluation for the needle |
| C79 | `Model/Telescope64.lean`: all methods of `Alignment` and `Telescope` used by the firmware with `double` as binary64 and `float` as binary32; the loops of the triangulation are shared with `Model/Triangulate.lean` | representation invariant (array holds exactly the known stars, each reference where the star stood up to full turns) by induction on the history; C71 and C78 for the readings; rounding analysis of the float areas for 'inside'; runs of a concrete evening by kernel evaluation of the triangulation |
| C80 | `Model/Session64.lean`: `unpackPosition`, the NexStar sync and position branches, `localSiderealTimeDegrees`, `packPosition` composed with `Model/Telescope64.lean`, all rounded; GNSS data and orientations are inputs | simulation: every session is a history of C79 whose stars match (C66, C04, C70 for the numbers), by induction; perturbation bound from sidereal time and wire resolution; the story is a function of the events |
| C81 | `Model/SharedWords.lean`: the programs of `Model/Shared.lean` executed word by word (two accesses per `double`, either word first); a member is the pair of numbers whose high and low word it holds; the words themselves by IEEE 754 (`highWord`, `lowWord`, `ofWords`) | the rely/guarantee rules of C76 lifted to tasks in the middle of an access: each half comes from a number that was written, a read delivers a mixture; separate induction over all programs that only the calls' own orientations are written; arithmetic of significands for the distance of a mixture from its high word; the bound attained by a concrete schedule (kernel computation) |
| C82 | `Model/Telescope64.lean`: `superPts`, `withSuper`, `centre`, `sqr`, `circumCircle`, `ieeeTest` (every operation rounded; not-finite intermediate values give arbitrary answers); the loops of `Model/Triangulate.lean` | rounding analysis of the circumcentre in all three branches (`Circum64`) and of the two tests (`Circum64Test`): with the margin of `Clear` the in-circle test answers right, and "completed" is never wrong; the calculated supertriangle is within 1e-9 of the exact one (`Super64`); the mesh invariant of C42 for any faithful tests (`MeshRun`); purge and the Delaunay properties of what is delivered (`Delivered`); lifted to histories with C79; a single position has a flat supertriangle, whose circumcircle is not calculated (`Delaunay64One`): with that, no call of a history fails whose stars are at every moment at most one or well placed (`C82_run`, `C82_evening`) |
| C83 | `Model/Gyro32.lean` (`gyroSample`, `clipGyroNoise`, `calibrate` for rates), `Model/Imu32.lean` (`meanVec3`) | frame lemmas for the array, error recursion k(k+1)B/2^24 of the running sums by induction, the grid of floats around 0.01 for the comparison with a double |
| C84 | `Model/Firmware64.lean`: `setup()`, `loop()`, `onBluetoothData`, `handleRequest` with every number rounded; scheduler, buffers, connections, GNSS, MQTT, LED as in `Model/Main.lean` | one lemma per task (`Lemmas/Firmware64.lean`) on what it does to the telescope and what it sends; the meaning of a history (`Spec/Firmware64.lean`) exists and is unique by induction; its events meet the requirements of C80 and C82 because the heading is a `float` in [0, 360) (C27) and the pitch a `float`; `Reports` of C80 becomes the bytes sent |
| C85 | the same model | an invariant (`Live`: `C84`'s, and the samples stored are those of the last 50 calls, within the range of the sensor, the calibration offset at most 1) of all histories; per task, which of its calculations can fail (`Lemmas/Firmware64Stop.lean`): the pitch never, as `atan2` gives an angle, the heading never (C27), a buffer access never (as in C25); the rest is the list `Cause` with `ReportCause` (`Spec/Firmware64Stop.lean`); `C85_syncs`: with C82 for the session so far, causes (d), (e) do not occur; `C85_answers`: with C80's `Reports`, cause (c) is only the undefined conversion |

## 5. Trusted base

* Lean's kernel; axioms `propext`, `Classical.choice`, `Quot.sound` only (per theorem: `AXIOMS.md`). No compiled evaluation:
  concrete witnesses use `decide +kernel`, i.e. the kernel evaluates them.
* The reading of the C++ code recorded in the comments of `Model/`, and of the C standard recorded in `C/`.
* The semantics of Node's `Buffer` (`readInt32LE`, `writeInt32LE` throwing `RangeError`), `RegExp` and UTF-8 decoding used by
  `server.ts`, and of Python's `bytes.strip` and `struct.unpack` used by `server.py`, as recorded in `Model/Node.lean` and `Model/Python.lean`.
* For `C82_run`, `C82_run_stars`, `C82_evening`: that the local variables `xc` and `r` of the triangulation, which the code reads before it has set them when there
  is one star, hold finite numbers up to 2^1000 (formally that read is undefined behaviour; the theorems that assume a run to succeed leave such runs out);
* For C69, C71, C79, C80, C82, C84, C85 (`C85_syncs`, `C85_answers`): that the C library is `Accurate` (`Spec/Coord64.lean`: errors of `sin`, `cos`, `sqrt`, `atan2` at most one unit in the last place);
  this is a hypothesis of the theorems. For C85: that `atan2` for `float` returns a number of at most 3.15 in magnitude (`Angular`), and that the acceleration sensor stays within 20 m/s² (`InScale`).
* Not modelled: compiler, Arduino/ESP-IDF libraries, WiFi/Bluetooth/MQTT stacks, preemption of `loop()` by the
  Bluetooth task except for the transmit buffer (C74), the telescope object (C76, C81) and the GNSS object (C77), rounding of `double`/`long double` except where stated in section 2, NaN and infinities, signed zero,
  stack and heap exhaustion.

## 6. Findings

Behaviour of the code the proofs brought up (each is a theorem or a kernel-checked example in `Props/`).

GNSS: a line without `$` in front of a sentence bypasses the checksum (C14, C21); short sentences with valid checksum read past
the end (C22); a GSV sentence with few fields takes its own checksum as satellite count; fractions above .99 give second 60 (C16);
hemisphere flags and position can contradict each other (C17); `*` before `$` is accepted; missing `*` is UB with 64-bit `size_t`.

NexStar: unknown requests shorter than 8 bytes are over-read by the log line (C08); `e` converts negative declinations to
unsigned, UB on the ESP32 (C05, C09); `w` does the same south of the equator or west of Greenwich (C12); -90° comes back as 270°
(C10); garbage hex digits are accepted as (0,0) (C10); an 18-byte buffer truncates the `e` reply (C07).

Linear algebra: `LUDecompose` reads one element past its array in every call; singular matrices with non-zero rows are
"inverted" (C38).

Alignment: the wrap base drifts with every added point (C33); the 64th point discards all points but keeps the triangles in use
(C32); three collinear points use only the first two; the float area test rejects inside points of large triangles (C45), and the reading then uses the matrix of another triangle (C79); a flat
triple is dropped because the supertriangle is too small (C42); a single point compares indeterminate variables (C43); a re-sync in
the same direction is ignored, a re-sync within the tolerance next to a known star is answered by the old triangle (C37).

Gyroscope (not used): with the integer `abs`, `clipGyroNoise` discards all rates below 57°/s (C83); the rates the firmware logs are always zero (C83).

Helper: `f_mod` in binary64 can return its modulus (C23).

Main loop: tasks starve if `loop()` is called less often than every 20 ms (C46); the single flash can be missed, patterns glitch at
the clock wrap (C48); the heading filter crosses north the long way (C27); the encoder is scaled by 16385 (C27); the TCP path hands
the whole 256-byte buffer to NexStar, so stale bytes count, and a failed read counts as data (C50); a message of LENGTH 74 is taken for
`J` (C50); publishing 22 or more points always writes past the buffer (C53); the point list is not valid JSON (C53); the local broker gets the
point list followed by left-over bytes, since no NUL is written, and is over-read if the list ends at the end of the buffer (C53, C65);
huge matrix
elements make the publication over-read (C57); the GNSS timeout is about 10 s (C47); a check while connected closes two waiting
connections (C49); flash writes are not atomic (C54); whether the device becomes a client of the network is decided by one more check after
the waiting loop, so a network that flickers there gives an access point (C67); a failed subscription is not retried until the connection is
lost (C68); resets can only come from the remote MQTT server, since the subscription at the local broker is commented out (C68).

Bluetooth: replies and publications are built in one buffer by two tasks without a lock; a client can receive the altitude text with
the end of its reply, and the MQTT server a reply (C74).  The telescope object is shared in the same way: a position asked for during the
first synchronisation uses a matrix that was never written, one during a repeated synchronisation is not calibrated, and two
simultaneous synchronisations can read `triangles[-1]` (C76).  The GNSS object too: a request while a sentence is parsed can see a time that is an
hour or a day off, or a latitude a degree off, and positions and synchronisations then work with a sidereal time more than 15° off (C77).

Linear algebra: three stars that are nearly but not exactly in a line give a matrix that is degrees off (C78); setting an element of a sparse matrix to zero can lose another element; elements for which the table has no room share one
variable, which the repository declares but does not define (C75); `A = ~A` mirrors the lower triangle (C72).

Servers: in `server.ts` a goto with declination ±180° (the two extreme 32-bit values) makes `writeInt32LE` throw and ends the process
(C59); the echoed declination may be one unit nearer to zero (C59); right ascensions of 24 h and more appear for local sidereal times
above 180° (C61).  `server.py` strips white space bytes from binary data, so gotos with declination in [12.65625°, 19.6875°) or
[45°, 46.40625°) are dropped, and two messages received together raise `struct.error` (C62).

Matrix library (not used this way by the firmware): `Determinant` of a singular matrix without a zero row is not zero, `A = ~A` mirrors the
lower triangle instead of transposing, and `Matrix<3,3>(x)` writes the last element only (C72).
