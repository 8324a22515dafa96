{"id": "C01", "title": "packPosition buffer contract", "statement": "packPosition returns 0 and leaves the buffer untouched when bufferSize < 24; otherwise, when it completes, it returns 24, writes exactly the first 24 bytes and leaves every later byte of the buffer unchanged.", "quantifier": "all positions, timestamps, buffer contents and buffer sizes", "why_tests_cant": "tests try one short and a few exact buffers; the contract is over every size and content", "anchors": ["esp32-telescope-sync/lib/telescope/src/telescope.cpp:packPosition"]}
{"id": "C02", "title": "packPosition emits the Stellarium 'current position' layout", "statement": "The 24 bytes are, little-endian, LENGTH=24 (2 bytes), TYPE=0 (2), TIME=timestamp (8), RA and DEC as the 32-bit fraction of a full turn rounded to nearest (4+4), STATUS=0 (4).", "quantifier": "all timestamps (64 bit) and all positions whose encoding is defined", "why_tests_cant": "2^64 timestamps and a continuum of positions", "anchors": ["esp32-telescope-sync/lib/telescope/src/telescope.cpp:packPosition"]}
{"id": "C03", "title": "packPosition/unpackPosition round trip", "statement": "Unpacking a packet produced by packPosition succeeds and returns RA and DEC equal to the packed ones modulo 360 degrees within half an encoding step (360/2^33 degrees), and TIME divided by 1000 rounded down.", "quantifier": "all positions and timestamps for which packing is defined; for wrapping float-to-integer conversion, all positions", "why_tests_cant": "needs every representable position, including the rounding boundary and negative declinations", "anchors": ["esp32-telescope-sync/lib/telescope/src/telescope.cpp:packPosition", "esp32-telescope-sync/lib/telescope/src/telescope.cpp:unpackPosition"]}
{"id": "C04", "title": "unpackPosition accepts exactly well-formed messages and is bounds-safe", "statement": "With at least two readable bytes, unpackPosition never reads outside the first dataLength bytes; it returns true exactly when LENGTH >= 20, LENGTH <= dataLength and TYPE = 0; when it returns false no output is written; the result depends only on the first 20 bytes.", "quantifier": "all byte strings and all dataLength not exceeding the readable memory", "why_tests_cant": "exponentially many byte strings; the claim includes absence of out-of-bounds reads", "anchors": ["esp32-telescope-sync/lib/telescope/src/telescope.cpp:unpackPosition"]}
{"id": "C05", "title": "Domain on which position encoding is defined", "statement": "packPosition performs a defined float-to-uint32 conversion exactly for RA, DEC >= -180/2^32 and < 360 - 180/2^32 degrees; in particular every declination below -180/2^32 degrees (all of the southern sky) and an RA that rounds to a full turn reach C++ undefined behaviour.", "quantifier": "all real RA/DEC", "why_tests_cant": "UB may happen to give the expected bytes on the test host; the boundary is a continuum", "anchors": ["esp32-telescope-sync/lib/telescope/src/telescope.cpp:packPosition"]}
{"id": "C06", "title": "NexStar command table", "statement": "Each supported request (K,V,P..,m,w,e,h,L,J,t,s) yields exactly the response bytes of the protocol table; every other request (including too-short ones) returns 0 and leaves the response buffer and the telescope state unchanged.", "quantifier": "all request byte strings, all requestLength, all telescope/GNSS states", "why_tests_cant": "unbounded request strings and states", "anchors": ["esp32-telescope-sync/lib/nexstar/src/nexstar.cpp:handleRequest"]}
{"id": "C07", "title": "NexStar response buffer safety", "statement": "handleRequest never writes beyond responseMaxLength bytes of the response; the returned length is at most 18, every non-empty response ends in '#', and when responseMaxLength >= 19 the first 'length' bytes of the buffer are exactly the response followed by a NUL.", "quantifier": "all requests, states and response buffer sizes", "why_tests_cant": "every truncation length matters", "anchors": ["esp32-telescope-sync/lib/nexstar/src/nexstar.cpp:handleRequest"]}
{"id": "C08", "title": "NexStar request bounds", "statement": "handleRequest's result depends only on the first requestLength bytes and, in the non-ARDUINO build, it never reads past them; in the ARDUINO build the unknown-command log reads 8 bytes regardless of requestLength.", "quantifier": "all requests, lengths and surrounding memory", "why_tests_cant": "memory past the request is arbitrary; reading it is invisible to a unit test", "anchors": ["esp32-telescope-sync/lib/nexstar/src/nexstar.cpp:handleRequest"]}
{"id": "C09", "title": "'e' reports the calibrated position", "statement": "The 'e' response is 18 bytes: two 8-digit upper-case hexadecimal numbers separated by ',' and ended by '#', which decode to RA and DEC (as fraction of a turn) truncated to 1/2^32 turn; it is defined for all positions with DEC > -360/2^32 degrees and undefined behaviour below.", "quantifier": "all positions in the ranges produced by the coordinate conversion", "why_tests_cant": "continuum of positions", "anchors": ["esp32-telescope-sync/lib/nexstar/src/nexstar.cpp:handleRequest"]}
{"id": "C10", "title": "'s' decodes the synced position", "statement": "A sync request 's' + 8 hex digits + any byte + 8 hex digits (upper or lower case) decodes RA = 360*value/2^32 in [0,360) and DEC congruent to 360*value/2^32 modulo 360 in (-90, 270]; feeding the numbers of an 'e' response back with 's' recovers the position within one encoding step modulo 360.", "quantifier": "all pairs of 32-bit values, all positions", "why_tests_cant": "2^64 value pairs", "anchors": ["esp32-telescope-sync/lib/nexstar/src/nexstar.cpp:handleRequest"]}
{"id": "C11", "title": "Alignment-complete flag over histories", "statement": "After any history of requests and other operations, 'J' answers 1 if and only if at least one sync request of 18 or more bytes was handled since power-up; no operation ever resets it (including the MQTT reset of the alignment).", "quantifier": "all finite histories of operations", "why_tests_cant": "quantifies over unbounded histories", "anchors": ["esp32-telescope-sync/lib/nexstar/src/nexstar.cpp:handleRequest", "esp32-telescope-sync/src/main.cpp:mqttCallback"]}
{"id": "C12", "title": "'w' reports the observer's location", "statement": "For northern/eastern positions the 'w' response contains whole degrees, whole minutes, 0 and the hemisphere flags of latitude and longitude; for southern or western positions that are not a whole number of degrees the reply, if there is one, does not contain the degrees and minutes of the location, and where out-of-range conversions are undefined there is none if the position is at least one minute away from the next smaller whole degree.", "quantifier": "all latitudes and longitudes", "why_tests_cant": "continuum of locations; UB on the negative side", "anchors": ["esp32-telescope-sync/lib/nexstar/src/nexstar.cpp:handleRequest"]}
{"id": "C13", "title": "'h' reports the GNSS time", "statement": "The 'h' response contains hour, minute, second, month, day, year-2000 of the last decoded GNSS time followed by two zero bytes, for every time the parser can store from well-formed sentences.", "quantifier": "all times", "why_tests_cant": "many times; the byte truncation must never lose information", "anchors": ["esp32-telescope-sync/lib/nexstar/src/nexstar.cpp:handleRequest"]}
{"id": "C14", "title": "NMEA checksum acceptance", "statement": "verifyChecksum accepts a sentence containing '$' and a later '*' exactly when the XOR of the bytes between the first '$' and the first '*' equals the hexadecimal number after the '*'; every correctly built 7-bit sentence is accepted, and changing any single payload byte (or any set of bytes changing the XOR) makes it rejected.", "quantifier": "all sentences and all corruptions", "why_tests_cant": "every payload and every corruption pattern", "anchors": ["esp32-telescope-sync/lib/gnss/src/gnss.cpp:verifyChecksum"]}
{"id": "C15", "title": "Rejected input leaves the GNSS state unchanged", "statement": "Whenever fromRMC, fromGGA, fromGSV or fromNMEA return false, or fromBuffer returns 0, every field of the GNSS state is unchanged.", "quantifier": "all byte strings and all prior states", "why_tests_cant": "all garbage inputs", "anchors": ["esp32-telescope-sync/lib/gnss/src/gnss.cpp:fromRMC", "esp32-telescope-sync/lib/gnss/src/gnss.cpp:fromGGA", "esp32-telescope-sync/lib/gnss/src/gnss.cpp:fromGSV", "esp32-telescope-sync/lib/gnss/src/gnss.cpp:fromNMEA", "esp32-telescope-sync/lib/gnss/src/gnss.cpp:fromBuffer"]}
{"id": "C16", "title": "RMC decoding", "statement": "For every well-formed RMC sentence with a valid fix the stored time has the sentence's hour and minute and a second within the rounding of a 32-bit float (exact for whole seconds), the stored date is exact, and latitude/longitude are within 2.5e-5 degrees of the sentence's value with the right sign.", "quantifier": "all hours, minutes, seconds, dates, positions and fraction lengths", "why_tests_cant": "the float rounding must be analysed for every value", "anchors": ["esp32-telescope-sync/lib/gnss/src/gnss.cpp:fromRMC"]}
{"id": "C17", "title": "No fix keeps the last position", "statement": "A sentence without fix (RMC status other than 'A', GGA quality 0) never changes the stored latitude and longitude, and sets valid to false; the hemisphere flags are overwritten nevertheless, so they can contradict the stored position.", "quantifier": "all accepted sentences and prior states", "why_tests_cant": "all sentences and states", "anchors": ["esp32-telescope-sync/lib/gnss/src/gnss.cpp:fromRMC", "esp32-telescope-sync/lib/gnss/src/gnss.cpp:fromGGA"]}
{"id": "C18", "title": "GGA decoding", "statement": "For every well-formed GGA sentence the stored time, position, fix flag, satellites used, dilution and altitude are those of the sentence (position within 2.5e-5 degrees); the date is not changed.", "quantifier": "all well-formed sentences", "why_tests_cant": "value space", "anchors": ["esp32-telescope-sync/lib/gnss/src/gnss.cpp:fromGGA"]}
{"id": "C19", "title": "GSV decoding", "statement": "For every well-formed GSV sentence satView becomes the third field and nothing else changes.", "quantifier": "all well-formed sentences and states", "why_tests_cant": "value space", "anchors": ["esp32-telescope-sync/lib/gnss/src/gnss.cpp:fromGSV"]}
{"id": "C20", "title": "Serial buffer is processed line by line", "statement": "For a buffer consisting of complete '$...\\n' lines and an incomplete tail, fromBuffer has the effect of fromNMEA on each line in order and returns the number of accepted lines; an incomplete tail has no effect; a leading fragment of a line without '$' is skipped.", "quantifier": "all numbers of lines, line contents, tails, states", "why_tests_cant": "unbounded line sequences", "anchors": ["esp32-telescope-sync/lib/gnss/src/gnss.cpp:fromBuffer"]}
{"id": "C21", "title": "fromBuffer terminates and bounds its count", "statement": "fromBuffer terminates on every input, returns at most the number of newline characters, and every state change comes from fromNMEA on a substring; junk lines can make it process the same sentence twice, and then parse a sentence whose own checksum is wrong.", "quantifier": "all byte strings", "why_tests_cant": "termination and resynchronisation over all inputs", "anchors": ["esp32-telescope-sync/lib/gnss/src/gnss.cpp:fromBuffer"]}
{"id": "C22", "title": "NMEA parser memory safety", "statement": "On well-formed sentences the parser reads only inside the sentence; a short sentence with a correct checksum makes fromRMC/fromGGA read past the terminating NUL; on a 64-bit host a sentence without '*' makes verifyChecksum read far outside the string while on the 32-bit target it is rejected.", "quantifier": "all sentences; both word sizes", "why_tests_cant": "out-of-bounds reads are invisible to value tests", "anchors": ["esp32-telescope-sync/lib/gnss/src/gnss.cpp:fromRMC", "esp32-telescope-sync/lib/gnss/src/gnss.cpp:fromGGA", "esp32-telescope-sync/lib/gnss/src/gnss.cpp:verifyChecksum"]}
{"id": "C23", "title": "f_mod is the floored modulus", "statement": "f_mod(a,n) for n>0 lies in [0,n), differs from a by an integer multiple of n, is the identity on [0,n), and is periodic; in IEEE double arithmetic it can return n itself.", "quantifier": "all reals a, all n > 0", "why_tests_cant": "continuum, boundary values", "anchors": ["esp32-telescope-sync/lib/helper/src/helper.cpp:f_mod"]}
{"id": "C24", "title": "julianDay counts civil days", "statement": "For every Gregorian calendar date julianDay equals 2451544.5 plus the signed number of days from 2000-01-01, so consecutive dates differ by exactly 1, over month ends, leap years and century rules.", "quantifier": "all dates of the years 1 to 6765, in the float and double arithmetic of the code", "why_tests_cant": "146097-day cycle times unbounded years", "anchors": ["esp32-telescope-sync/lib/helper/src/helper.cpp:julianDay"]}
{"id": "C25", "title": "Local sidereal time", "statement": "getLocalSiderealTimeDegrees is in [0,360), increases with longitude one-to-one modulo 360, and advances by 360.98564736629 degrees per day (up to the T^2 term) modulo 360.", "quantifier": "all times and longitudes", "why_tests_cant": "continuum", "anchors": ["esp32-telescope-sync/lib/helper/src/helper.cpp:getLocalSiderealTimeDegrees"]}
{"id": "C26", "title": "AMT22 checkbits", "statement": "verifyAmtCheckbits accepts a word exactly when bits 0,2,..,14 contain an odd number of ones and bits 1,3,..,15 contain an odd number of ones; bits above 15 are ignored; every single-bit error (and every error hitting an odd number of bits of either class) in an accepted frame is rejected.", "quantifier": "all 2^32 words and all error patterns", "why_tests_cant": "exhaustive over error patterns and words", "anchors": ["esp32-telescope-sync/lib/helper/src/helper.cpp:verifyAmtCheckbits"]}
{"id": "C27", "title": "Heading filter", "statement": "Starting in [0,360) the filtered heading stays in [0,360) for every sequence of encoder frames; frames with bad checkbits do not change it; with a constant encoder value the distance to the target shrinks by exactly 0.7 per accepted frame; the encoder scaling deviates from a true 14-bit turn by less than 0.022 degrees.", "quantifier": "all finite sequences of encoder words", "why_tests_cant": "unbounded histories", "anchors": ["esp32-telescope-sync/src/main.cpp:loop"]}
{"id": "C28", "title": "Horizontal to equatorial and back", "statement": "equatorialToHorizontal(horizontalToEquatorial(az,alt)) returns alt and az modulo 360 for every alt strictly between -90 and 90, every latitude and sidereal time; at alt = +-90 the altitude is returned.", "quantifier": "all real azimuths, altitudes, latitudes, sidereal times", "why_tests_cant": "continuum including poles", "anchors": ["esp32-telescope-sync/lib/telescope/src/telescope.cpp:horizontalToEquatorial", "esp32-telescope-sync/lib/telescope/src/telescope.cpp:equatorialToHorizontal"]}
{"id": "C29", "title": "Equatorial to horizontal and back", "statement": "horizontalToEquatorial(equatorialToHorizontal(ra,dec)) returns dec and ra modulo 360 for every dec strictly between -90 and 90, every latitude and sidereal time.", "quantifier": "all real positions, latitudes, sidereal times", "why_tests_cant": "continuum including poles", "anchors": ["esp32-telescope-sync/lib/telescope/src/telescope.cpp:horizontalToEquatorial", "esp32-telescope-sync/lib/telescope/src/telescope.cpp:equatorialToHorizontal"]}
{"id": "C30", "title": "Coordinate ranges and invariances", "statement": "Results satisfy ra in [0,360), dec in [-90,90], az in [0,360), alt in [-90,90]; results depend on angles only modulo 360; shifting sidereal time and RA together does not change the horizontal position; horizontal orientation fixed, RA advances with sidereal time.", "quantifier": "all real inputs", "why_tests_cant": "continuum", "anchors": ["esp32-telescope-sync/lib/telescope/src/telescope.cpp:horizontalToEquatorial", "esp32-telescope-sync/lib/telescope/src/telescope.cpp:equatorialToHorizontal"]}
{"id": "C31", "title": "addVertexPair deduplicates", "statement": "addVertexPair returns false and changes nothing exactly when a stored point has the same actual coordinates; otherwise it returns true; stored actual positions are always pairwise distinct.", "quantifier": "all histories of addVertexPair/clearAll calls", "why_tests_cant": "unbounded histories", "anchors": ["esp32-telescope-sync/lib/alignment/src/alignment.cpp:addVertexPair"]}
{"id": "C32", "title": "Capacity: the 64th point", "statement": "The number of stored points is always below 64, never indexes outside the vertex array, and equals the number of accepted points since the last reset modulo 64: accepting the 64th point discards all of them, but keeps the triangles, which go on being used until the next point.", "quantifier": "all histories", "why_tests_cant": "needs 64 steps and arbitrary interleaving with resets", "anchors": ["esp32-telescope-sync/lib/alignment/src/alignment.cpp:addVertexPair", "esp32-telescope-sync/lib/alignment/src/alignment.cpp:clearAll"]}
{"id": "C33", "title": "Stored points are sorted and faithful", "statement": "Below capacity the stored vertices are exactly the accepted (actual, reference) pairs, sorted by actual azimuth, each reference azimuth equal to the given one up to one full turn and within 180 degrees of the reference of the vertex that is first at insertion, if the given one differs from that by at most 540 degrees; since later points can become the first vertex the base can drift, so that stored references differ by more although the given ones are close.", "quantifier": "all histories, all sorting implementations", "why_tests_cant": "unbounded histories, unspecified qsort order of ties", "anchors": ["esp32-telescope-sync/lib/alignment/src/alignment.cpp:addVertexPair"]}
{"id": "C34", "title": "1-point alignment is a translation", "statement": "With one stored point the calibrated orientation of any orientation is that orientation shifted by (reference - actual), azimuth modulo 360; the calibration point itself maps to its reference.", "quantifier": "all points and queries", "why_tests_cant": "continuum", "anchors": ["esp32-telescope-sync/lib/alignment/src/alignment.cpp:updateTransformationMatrices", "esp32-telescope-sync/lib/alignment/src/alignment.cpp:getTransformationMatrix", "esp32-telescope-sync/lib/alignment/src/alignment.cpp:getCalibratedOrientation"]}
{"id": "C35", "title": "2-point alignment is the similarity through both points", "statement": "With two stored points (or only collinear ones) whose first two have distinct actual positions, the transform is the unique orientation-preserving similarity mapping the first two actual points to their references.", "quantifier": "all point pairs and queries", "why_tests_cant": "continuum; pivoting cases of the LU decomposition", "anchors": ["esp32-telescope-sync/lib/alignment/src/alignment.cpp:updateTransformationMatrices", "esp32-telescope-sync/lib/linalg/src/NotSoBasicLinearAlgebra.h:Invert", "esp32-telescope-sync/lib/linalg/src/NotSoBasicLinearAlgebra.h:LUDecompose"]}
{"id": "C36", "title": "Triangle alignment interpolates", "statement": "For every triangle with non-collinear actual corners the stored matrix is the unique affine map sending each corner's actual position to its reference.", "quantifier": "all triangles", "why_tests_cant": "continuum", "anchors": ["esp32-telescope-sync/lib/alignment/src/alignment.cpp:updateTransformationMatrices", "esp32-telescope-sync/lib/linalg/src/NotSoBasicLinearAlgebra.h:Invert"]}
{"id": "C37", "title": "A synced star is reported where it was synced", "statement": "After a sync, with the telescope unmoved and the same time and place, the reported equatorial position equals the synced one. Holds for the first sync and for two syncs, for three with a triangle, for n syncs whenever the selected triangle has the point as a corner, and for n stars in generic directions without slivers whenever the star belongs to an empty circle of moderate radius; fails for three collinear points and for very close points.", "quantifier": "all sync histories", "why_tests_cant": "continuum of positions and unbounded histories", "anchors": ["esp32-telescope-sync/lib/telescope/src/telescope.cpp:addReferencePoint", "esp32-telescope-sync/lib/telescope/src/telescope.cpp:getCalibratedOrientation", "esp32-telescope-sync/lib/alignment/src/alignment.cpp:getTransformationMatrix"]}
{"id": "C38", "title": "Matrix inversion", "statement": "BLA::Invert on a 3x3 matrix with non-zero determinant returns true and the exact inverse, whatever value lies behind the matrix in memory (LUDecompose reads one element past the array); it returns false only if a row (extended by the next element) is zero.", "quantifier": "all non-singular 3x3 matrices, all neighbouring memory contents", "why_tests_cant": "continuum times pivoting patterns; UB read", "anchors": ["esp32-telescope-sync/lib/linalg/src/NotSoBasicLinearAlgebra.h:Invert", "esp32-telescope-sync/lib/linalg/src/NotSoBasicLinearAlgebra.h:LUDecompose", "esp32-telescope-sync/lib/linalg/src/NotSoBasicLinearAlgebra.h:LUSolve"]}
{"id": "C39", "title": "Transformation type matches the matrix used", "statement": "getTransformationType reports NONE/POINT/LINE/TRIANGLE_IN/TRIANGLE_OUT exactly when the matrix used is identity / the 1-point / the 2-point / the first containing triangle's / the nearest triangle's matrix.", "quantifier": "all alignment states and queries", "why_tests_cant": "all states", "anchors": ["esp32-telescope-sync/lib/alignment/src/alignment.cpp:getTransformationType", "esp32-telescope-sync/lib/alignment/src/alignment.cpp:getTransformationMatrix"]}
{"id": "C40", "title": "Reset returns to the identity", "statement": "After clearAll, the calibrated orientation of every orientation is itself with azimuth modulo 360, whatever the history before; the alignment behaves from then on like a fresh one.", "quantifier": "all histories", "why_tests_cant": "unbounded histories", "anchors": ["esp32-telescope-sync/lib/alignment/src/alignment.cpp:clearAll", "esp32-telescope-sync/lib/alignment/src/alignment.cpp:getCalibratedOrientation", "esp32-telescope-sync/src/main.cpp:mqttCallback"]}
{"id": "C41", "title": "Triangulation index safety", "statement": "Whatever the floating-point arithmetic does, every triangle produced refers to three different stored points (indices below the number of points).", "quantifier": "all vertex sets and all outcomes of every geometric test", "why_tests_cant": "floating-point rounding patterns cannot be enumerated", "anchors": ["esp32-telescope-sync/lib/alignment/src/alignment.cpp:TriangulateActual"]}
{"id": "C42", "title": "Triangulation buffer bounds and Delaunay property", "statement": "In exact arithmetic, for up to 64 points with altitudes pairwise equal or at least EPSILON (1e-6) apart and a spread of at least 2e-6 degrees, the triangulation never overruns its work arrays, divides by no zero and delivers at most 2n-4 triangles; they are clockwise, do not overlap, no stored point lies strictly inside a circumcircle, and every triple of non-collinear points whose circumcircle contains no other point and has a radius below nine times the spread is delivered. Consequently a sync always succeeds for such points. Flatter triples can be dropped because the supertriangle is too small.", "quantifier": "all point sets of up to 64 points and all sync histories", "why_tests_cant": "continuum of point sets of any size", "anchors": ["esp32-telescope-sync/lib/alignment/src/alignment.cpp:TriangulateActual", "esp32-telescope-sync/lib/alignment/src/alignment.cpp:CircumCircle"]}
{"id": "C43", "title": "Single point triangulation reads indeterminate values harmlessly", "statement": "With one point the work triangle is degenerate and TriangulateActual compares never-written variables; whatever they contain the result is zero triangles.", "quantifier": "all points, all indeterminate values", "why_tests_cant": "the indeterminate value is not under test control", "anchors": ["esp32-telescope-sync/lib/alignment/src/alignment.cpp:TriangulateActual", "esp32-telescope-sync/lib/alignment/src/alignment.cpp:CircumCircle"]}
{"id": "C44", "title": "Nearest triangle", "statement": "nearestTriangle returns the first index minimising the squared distance between the query and the triangle's centroid, and -1 exactly when there are no triangles.", "quantifier": "all triangle lists and queries", "why_tests_cant": "continuum", "anchors": ["esp32-telescope-sync/lib/alignment/src/alignment.cpp:nearestTriangle"]}
{"id": "C45", "title": "Point-in-triangle test", "statement": "In exact arithmetic isInTriangle is true for every point of the closed triangle and false when the area excess is at least 0.0001; with 32-bit float area variables it can reject points inside large triangles.", "quantifier": "all points and triangles", "why_tests_cant": "continuum; rounding", "anchors": ["esp32-telescope-sync/lib/alignment/src/alignment.cpp:isInTriangle", "esp32-telescope-sync/lib/alignment/src/alignment.cpp:triangleArea"]}
{"id": "C46", "title": "Scheduler", "statement": "Each loop() call runs at most one task; a task runs only when more than its period has passed since its last run, also across the 32-bit microsecond wrap; a task is only delayed by higher-priority due tasks, and if loop() is called less often than every 20 ms no lower-priority task ever runs.", "quantifier": "all sequences of loop() calls and times", "why_tests_cant": "unbounded schedules, counter wrap after 71 minutes", "anchors": ["esp32-telescope-sync/src/main.cpp:loop"]}
{"id": "C47", "title": "GNSS watchdog", "statement": "GNSS is available after any poll with a valid sentence and stays so for exactly the next 19 empty polls (about 10 s, not the 5 s of the comment); polls that deliver only garbage neither extend nor shorten it.", "quantifier": "all sequences of polls", "why_tests_cant": "unbounded histories", "anchors": ["esp32-telescope-sync/src/main.cpp:loop"]}
{"id": "C48", "title": "LED patterns", "statement": "For each mode the LED level is the documented periodic function of time (blink duty 50%, 1/2/4 flashes per 5 s); READY leaves the LED unchanged; the main loop shows 1 Hz blinking exactly while there is no fix.", "quantifier": "all modes and all 32-bit microsecond times", "why_tests_cant": "2^32 times", "anchors": ["esp32-telescope-sync/lib/ledmanager/src/ledmanager.cpp:update", "esp32-telescope-sync/src/main.cpp:loop"]}
{"id": "C49", "title": "Single TCP client", "statement": "A connected client is never displaced by later connection attempts; when no client is connected a pending client is accepted.", "quantifier": "all sequences of connection events", "why_tests_cant": "unbounded event sequences", "anchors": ["esp32-telescope-sync/src/main.cpp:checkForConnections"]}
{"id": "C50", "title": "TCP dispatch between NexStar and Stellarium protocols", "statement": "A received goto message (LENGTH 20, TYPE 0) is never taken for a NexStar command and adds a reference point; the TCP path passes the whole 256-byte buffer as the request, so the answer can depend on bytes of earlier messages, unlike over Bluetooth.", "quantifier": "all received byte strings and all previous buffer contents", "why_tests_cant": "stale buffer contents depend on history", "anchors": ["esp32-telescope-sync/src/main.cpp:loop", "esp32-telescope-sync/src/main.cpp:onBluetoothData", "esp32-telescope-sync/lib/nexstar/src/nexstar.cpp:handleRequest"]}
{"id": "C51", "title": "Protocol latch", "statement": "Binary position packets are sent only to a connected client while GNSS data is available and no NexStar command has ever been answered; after the first answered NexStar command none is ever sent again.", "quantifier": "all histories", "why_tests_cant": "unbounded histories", "anchors": ["esp32-telescope-sync/src/main.cpp:loop", "esp32-telescope-sync/src/main.cpp:onBluetoothData"]}
{"id": "C52", "title": "MQTT control topic", "statement": "A message resets the alignment exactly when its payload is non-empty, starts with '1', and the topic contains the control topic; all other messages change nothing.", "quantifier": "all topics and payloads", "why_tests_cant": "all strings", "anchors": ["esp32-telescope-sync/src/main.cpp:mqttCallback"]}
{"id": "C53", "title": "Vertex publication buffer", "statement": "Publishing the vertex list stays inside the 256-byte buffer exactly when the formatted list fits (and, if there is a local broker, a NUL byte follows in the buffer); the MQTT server gets exactly the list, the local broker the list and the bytes up to the next NUL; with 22 or more stored points it always writes out of bounds.", "quantifier": "all vertex lists", "why_tests_cant": "formatted lengths vary; overflow is silent", "anchors": ["esp32-telescope-sync/src/main.cpp:loop"]}
{"id": "C54", "title": "Persistence round trip", "statement": "A successful writeBinaryData followed by readBinaryData of the same length returns the written bytes; reading more than stored returns false and leaves the data unchanged; writes to other files do not interfere; a crash between opening and writing loses the old content.", "quantifier": "all data, lengths, file systems, crash points", "why_tests_cant": "all crash points", "anchors": ["esp32-telescope-sync/lib/persistency/src/persistency.cpp:readBinaryData", "esp32-telescope-sync/lib/persistency/src/persistency.cpp:writeBinaryData"]}
{"id": "C55", "title": "Accelerometer ring buffer", "statement": "After at least 50 samples the mean is the arithmetic mean of exactly the last 50 samples, for every sample history; before that missing samples count as zero.", "quantifier": "all sample histories", "why_tests_cant": "unbounded histories", "anchors": ["esp32-telescope-sync/lib/lsm6wrapper/src/lsm6wrapper.cpp:accSample", "esp32-telescope-sync/lib/lsm6wrapper/src/lsm6wrapper.cpp:getMeanAcc", "esp32-telescope-sync/lib/lsm6wrapper/src/lsm6wrapper.cpp:meanVec3"]}
{"id": "C56", "title": "Pitch from gravity", "statement": "If the last 50 accelerometer samples are gravity of any strength seen at pitch p (plus the calibrated sensor offset, plus anything along the rotation axis), the pitch computed from the mean is exactly p, for every p in (-180, 180] degrees and whatever was sampled before.", "quantifier": "all sample histories, strengths of gravity and angles", "why_tests_cant": "real-valued domain and unbounded histories", "anchors": ["esp32-telescope-sync/src/main.cpp:loop", "esp32-telescope-sync/lib/lsm6wrapper/src/lsm6wrapper.cpp:getMeanAcc", "esp32-telescope-sync/lib/lsm6wrapper/src/lsm6wrapper.cpp:accSample"]}
{"id": "C57", "title": "Published numbers", "statement": "In every history, each message the 500 ms task sends to one of the topics alt, az, ra, dec, lst, pitch, heading, temp is the decimal text of that quantity, rounded to the nearest unit of its last decimal, and one is sent by every available way; the GNSS report always fits the buffer and shows the stored fix.", "quantifier": "all histories, all values up to 10^200", "why_tests_cant": "formatting and buffer bounds depend on the values; over-reads are silent", "anchors": ["esp32-telescope-sync/src/main.cpp:loop"]}
{"id": "C58", "title": "From goto to position packet", "statement": "In every firmware history, when a connected client sends a Stellarium goto in a direction that is not yet synced (and fewer than two points, or up to 62 in general position, were synced before), every position packet sent before the orientation is next read carries exactly the declination of the goto message and its right ascension advanced by the sidereal time that has passed, rounded to the nearest wire unit; without GNSS data in between the eight coordinate bytes are identical. As long as there is no further sync, goto or reset, the synced points stay as they are, and the same holds for every later packet at whose time the telescope points where it pointed at the goto, whatever happened in between.", "quantifier": "all histories of the whole firmware, all goto messages with declination strictly between -90 and 90 degrees", "why_tests_cant": "unbounded histories and a real-valued domain", "anchors": ["esp32-telescope-sync/src/main.cpp:loop", "esp32-telescope-sync/lib/telescope/src/telescope.cpp:addReferencePoint", "esp32-telescope-sync/lib/telescope/src/telescope.cpp:getCalibratedOrientation"]}
{"id": "C59", "title": "TypeScript server answers every chunk", "statement": "Whatever a client sends in whatever chunks, the TypeScript server answers each chunk on its own: an exact NexStar request gets its reply, anything beginning with 's' is acknowledged, any other chunk of 20 or more bytes is a goto and is answered with a current-position message that carries the requested right ascension exactly (in IEEE double arithmetic) and the requested declination exactly or one unit nearer to zero, everything else is ignored; the server process can end only at a goto with one of the two extreme declinations, and there it can.", "quantifier": "all connections (sequences of chunks), all clock readings of 2000-2127, all telescope positions", "why_tests_cant": "unbounded sequences, 2^64 coordinate pairs, floating-point rounding", "anchors": ["node-server/src/server.ts:onConnect", "node-server/src/server.ts:packCurrentPosition", "node-server/src/server.ts:unpackGoto", "node-server/src/server.ts:calibrate", "node-server/src/server.ts:getCorrected", "node-server/src/server.ts:handleRequest"]}
{"id": "C60", "title": "TypeScript server and firmware agree on fixed replies", "statement": "For every exact NexStar request with a fixed reply the TypeScript server writes the bytes the firmware (not aligned) puts into its reply buffer; what must be answered is determined by the chunk alone.", "quantifier": "all exact requests, all firmware states and platforms", "why_tests_cant": "two implementations, all states", "anchors": ["node-server/src/server.ts:handleRequest", "esp32-telescope-sync/lib/nexstar/src/nexstar.cpp:handleRequest"]}
{"id": "C61", "title": "TypeScript server and firmware agree on coordinates", "statement": "For a local sidereal time in [0, 180] degrees the TypeScript server converts azimuth and altitude to the position the firmware computes, in range; for later sidereal times its right ascension may be 24 hours too large.", "quantifier": "all real azimuths, altitudes, latitudes, sidereal times", "why_tests_cant": "real-valued domain", "anchors": ["node-server/src/server.ts:fromHorizontalPosition", "esp32-telescope-sync/lib/telescope/src/telescope.cpp:horizontalToEquatorial"]}
{"id": "C62", "title": "Python server decoding", "statement": "A 20-byte message that neither begins nor ends with a white space byte is decoded: right ascension exactly, declination with its sign; all other 20-byte messages are reported as too short, which hits exactly the goto messages with declination in [12.65625, 19.6875) or [45, 46.40625) degrees; two messages received together are not decoded.", "quantifier": "all received byte strings", "why_tests_cant": "2^160 messages, floating-point rounding", "anchors": ["python-server/server.py:handle"]}
{"id": "C63", "title": "Nothing else stops the firmware", "statement": "If any history of events (loop calls with any sensor, serial, TCP and MQTT input, Bluetooth messages, connections) makes the firmware access memory outside a buffer, perform an undefined conversion or compute with a non-number, then at that moment one of ten listed hazards is present (unparsable or senseless GNSS data; a non-command of fewer than 8 bytes over Bluetooth; location or position requested or sent with a value outside the unsigned range where that conversion is undefined; a sync whose directions are not in general position; point list or matrix text too long for the buffer; an absurd temperature). After every history the telescope still answers with a position on the sphere. The short-message and negative-declination hazards do stop it.", "quantifier": "all histories of the whole firmware, all configurations and platforms, all inputs", "why_tests_cant": "absence of faults over unbounded histories; silent over-reads", "anchors": ["esp32-telescope-sync/src/main.cpp:loop", "esp32-telescope-sync/src/main.cpp:onBluetoothData", "esp32-telescope-sync/src/main.cpp:mqttCallback", "esp32-telescope-sync/lib/alignment/src/alignment.cpp:TriangulateActual"]}
{"id": "C64", "title": "Sensors determine the orientation", "statement": "In every history of the firmware, the heading is the filtered sequence of encoder words read so far (starting at 180), always in [0, 360), and settles within 360*0.7^n (plus 0.00011) degrees after n readings of one valid word; if the last 50 accelerometer readings are gravity at pitch p the next 100 ms task makes the pitch exactly p; from the first encoder reading on the telescope is oriented by exactly heading and pitch, and no report is made before.", "quantifier": "all histories of the whole firmware, all sensor readings, all call times including wrap-around of the clock", "why_tests_cant": "unbounded histories and schedules", "anchors": ["esp32-telescope-sync/src/main.cpp:loop", "esp32-telescope-sync/lib/lsm6wrapper/src/lsm6wrapper.cpp:accSample", "esp32-telescope-sync/lib/lsm6wrapper/src/lsm6wrapper.cpp:getMeanAcc"]}
{"id": "C65", "title": "The report is one consistent picture", "statement": "In every history of the firmware, each completed 500 ms task (with the orientation sensor) sends exactly twelve messages, one per topic, by each available way (MQTT server, local broker). They show one position in both coordinate systems (az/alt and ra/dec are the same direction at the shown sidereal time and the stored latitude, in their ranges); the shown matrix, read by rows, maps the shown heading and pitch to that position; they show the number of alignment points, of triangles, and the type number (0-2 by the number of points without triangles, else 4 inside and 3 outside the triangles), and the stored actual and reference points (the copies for the local broker are followed by left-over bytes of the buffer).", "quantifier": "all histories of the whole firmware, all alignments", "why_tests_cant": "unbounded histories and a real-valued domain; relation between twelve messages", "anchors": ["esp32-telescope-sync/src/main.cpp:loop", "esp32-telescope-sync/lib/alignment/src/alignment.cpp:getTransformationMatrix", "esp32-telescope-sync/lib/alignment/src/alignment.cpp:getTransformationType"]}
{"id": "C66", "title": "Protocol numbers survive double arithmetic", "statement": "With every floating-point operation rounded as IEEE 754 prescribes: unpackPosition returns the angles of every received message without any rounding error; packPosition writes, for all double angles in [0, 360-181/2^32], numbers within 1/2+2^-20 wire units of the angles, bit for bit those of exact arithmetic unless within 2^-20 of a tie; packing what was unpacked reproduces the coordinate bytes of every message; a NexStar sync (32-bit long) stores exactly the angles sent, 'e' is defined for all double angles in [0, 360) and truncates within 2^-22 units, and a telescope pointing exactly where it was told answers with the digits it was sent. Holds for long double being double (ESP32) or x87 extended (test host).", "quantifier": "all received messages, all double angles in the stated range, all buffers", "why_tests_cant": "2^64 coordinate pairs and 2^62 doubles; rounding near ties", "anchors": ["esp32-telescope-sync/lib/telescope/src/telescope.cpp:packPosition", "esp32-telescope-sync/lib/telescope/src/telescope.cpp:unpackPosition", "esp32-telescope-sync/lib/nexstar/src/nexstar.cpp:handleRequest"]}
{"id": "C67", "title": "What setup() makes available", "statement": "For every behaviour of the hardware, setup() waits d <= 5 seconds for the network (until a status check succeeds, or five times); one more check decides whether the device is its client; otherwise it opens an access point, never both. Which services exist afterwards (TCP server, MQTT client, local broker, file system, orientation sensor, Bluetooth), all calls in order and the stage number follow from the answers; it waits at most 6 seconds in all; and in every later history of the main loop the device sends only by ways that setup() opened.", "quantifier": "all answers of the hardware, all settings of the compile-time switches, all later histories", "why_tests_cant": "2^n combinations of answers in time and unbounded histories", "anchors": ["esp32-telescope-sync/src/main.cpp:setup", "esp32-telescope-sync/src/main.cpp:loop"]}
{"id": "C68", "title": "MQTT connection and reset requests", "statement": "With a connection to the MQTT server that can be lost and regained at any time, and the device receiving its own publications on the control topic: the device never sends more reset replies than there were reset requests by others; while the connection stands every request is answered exactly once or still queued, in order, one message per run of the 100 ms task, clearing the alignment; connecting is attempted exactly in the 2 s task while not connected; if the server accepts, the first such task re-connects and subscribes; a device whose subscription failed stays deaf until the connection is lost; apart from this every history is a history of the firmware without connection.", "quantifier": "all histories of firmware events, publications by others and connection losses", "why_tests_cant": "unbounded histories; feedback between device and server", "anchors": ["esp32-telescope-sync/src/main.cpp:reconnectMQTTClient", "esp32-telescope-sync/src/main.cpp:mqttCallback", "esp32-telescope-sync/src/main.cpp:loop"]}
{"id": "C69", "title": "Coordinate conversions in double arithmetic", "statement": "With every floating-point operation rounded as IEEE 754 prescribes and a C library accurate to one unit in the last place: converting between horizontal and equatorial coordinates never produces a non-number, the right ascension is in [0, 360] degrees (up to one denormal number), the azimuth in [0, 360], declination and altitude in [-90, 90] up to 2^-42; the result denotes the given direction up to 2^-43 in each Cartesian component, poles and zenith included; there and back changes a star's direction by at most 2^-41.", "quantifier": "all double angles, all sites, all sidereal times, all accurate C libraries (another one in each call)", "why_tests_cant": "2^256 inputs; cancellation near poles and zenith", "anchors": ["esp32-telescope-sync/lib/telescope/src/telescope.cpp:horizontalToEquatorial", "esp32-telescope-sync/lib/telescope/src/telescope.cpp:equatorialToHorizontal"]}
{"id": "C70", "title": "Sidereal time in double arithmetic", "statement": "With every floating-point operation rounded as IEEE 754 prescribes, for all instants within 130000 days (355 years) of the year 2000 and all longitudes, the local sidereal time is a finite double in [0, 360] degrees (up to one denormal number) and within 2^-22 degrees (0.001 arc seconds) of the mean sidereal time polynomial plus the longitude, up to full turns; for long double being double (ESP32) or x87 extended (test host). f_mod(a, 360) reproduces the angle of every double up to 2^40 within 2^-45 degrees and in [0, 360], negative only for arguments above -2^-1000.", "quantifier": "all instants, all double longitudes, all doubles up to 2^40", "why_tests_cant": "rounding of large intermediate values; quotients near integers", "anchors": ["esp32-telescope-sync/lib/helper/src/helper.cpp:getLocalSiderealTimeDegrees", "esp32-telescope-sync/lib/helper/src/helper.cpp:f_mod"]}
{"id": "C71", "title": "From goto to report in double arithmetic", "statement": "With every floating-point operation rounded as IEEE 754 prescribes and a C library accurate to one unit in the last place: a telescope aligned with its first star (at most 89.9 degrees from the equator) and not moved since reports, at any later sidereal time, the star's declination within 2^-30 degrees and its right ascension, shifted by the sidereal time elapsed, within 0.49 units of the wire format (360/2^32 degrees); asked at the same sidereal time, the position message carries, bit for bit, the coordinate bytes of the goto message the star came from. (Right ascension 0 and southern declinations only where out-of-range conversions to unsigned wrap.)", "quantifier": "all goto messages, all orientations, all sites, all sidereal times, all accurate C libraries", "why_tests_cant": "2^64 coordinate pairs and all orientations; accumulated rounding through eight trigonometric calls and two modulo operations", "anchors": ["esp32-telescope-sync/lib/telescope/src/telescope.cpp:addReferencePoint", "esp32-telescope-sync/lib/telescope/src/telescope.cpp:getCalibratedOrientation", "esp32-telescope-sync/lib/telescope/src/telescope.cpp:packPosition", "esp32-telescope-sync/lib/telescope/src/telescope.cpp:unpackPosition", "esp32-telescope-sync/lib/alignment/src/alignment.cpp:getCalibratedOrientation"]}
{"id": "C72", "title": "Matrix library, all sizes", "statement": "For matrices of every size: sums, differences, negation, scalar operations, products, transposes, concatenations, parts and traces computed by the library are the mathematical ones, also when an updated matrix is its own operand (but A = ~A mirrors the lower triangle, and a constructor call with too few elements fills the end of the matrix). LUDecompose, LUSolve, Invert and Determinant never read an element that was not written, never divide by zero and never access memory outside their arrays except the one value behind the matrix; LUDecompose reports 'singular' (and Invert false, Determinant zero) exactly if some row is zero together with the element stored after it; otherwise P*L*U is the given matrix up to 1e-20 in at most one element of each row and column, Invert returns the inverse and Determinant the determinant of that matrix - exactly the given one if it is not singular - and LUSolve solves every system with a non-singular matrix.", "quantifier": "all matrix sizes, all elements, all values behind the matrix", "why_tests_cant": "unbounded sizes; all pivot orders", "anchors": ["esp32-telescope-sync/lib/linalg/src/NotSoBasicLinearAlgebra.h:LUDecompose", "esp32-telescope-sync/lib/linalg/src/NotSoBasicLinearAlgebra.h:LUSolve", "esp32-telescope-sync/lib/linalg/src/NotSoBasicLinearAlgebra.h:Invert", "esp32-telescope-sync/lib/linalg/src/NotSoBasicLinearAlgebra.h:Determinant", "esp32-telescope-sync/lib/linalg/src/BasicLinearAlgebra.h:operator*", "esp32-telescope-sync/lib/linalg/src/ElementStorage.h:Trans"]}
{"id": "C73", "title": "Pitch in float arithmetic", "statement": "With every floating-point operation rounded as IEEE 754 prescribes (float sums and means, float or double atan2 accurate to two units of a float): for every sequence of accelerometer samples of which the last 50 are within +-20 m/s^2, the filtered acceleration is within 0.00004 m/s^2 of the mean of the last 50 samples; sine and cosine of the computed pitch are those of the direction of that mean, less the sensor offset, up to 0.0001/length + 0.000002; and a telescope at rest at a pitch p, seen with noise up to e per component, is reported at p up to 400(e+0.00004)/g + 0.0003 degrees, whatever was measured before.", "quantifier": "all histories of samples, all accurate C libraries, both overloads of atan2", "why_tests_cant": "2^4800 ring contents; accumulated rounding", "anchors": ["esp32-telescope-sync/lib/lsm6wrapper/src/lsm6wrapper.cpp:meanVec3", "esp32-telescope-sync/lib/lsm6wrapper/src/lsm6wrapper.cpp:getMeanAcc", "esp32-telescope-sync/lib/lsm6wrapper/src/lsm6wrapper.cpp:calibrate", "esp32-telescope-sync/lib/lsm6wrapper/src/lsm6wrapper.cpp:setCalibration", "esp32-telescope-sync/src/main.cpp:loop"]}
{"id": "C74", "title": "Shared transmit buffer under concurrency", "statement": "The Bluetooth callback and loop() build their messages in one buffer without a lock. However the two tasks are interleaved, byte by byte: as long as every single message has room in the buffer, no access is outside it and it remains terminated; every message a Bluetooth client receives has the length of the reply to its request, and each of its bytes is the byte of that reply or one that loop() stored in the same cell since the previous reply; if the other task stores nothing in the cells of a message meanwhile it goes out unchanged, and a task that runs while the other stores nothing sends exactly what it sends alone. No more can be said: for every message and every message the other task builds there is a schedule in which the receiver gets the beginning of the other message followed by the end of its own.", "quantifier": "all schedules, all messages, all initial contents of the buffer", "why_tests_cant": "the number of interleavings is unbounded; a test cannot choose the schedule", "anchors": ["esp32-telescope-sync/src/main.cpp:onBluetoothData", "esp32-telescope-sync/src/main.cpp:txBuffer", "esp32-telescope-sync/src/main.cpp:loop", "esp32-telescope-sync/src/main.cpp:mqttCallback"]}
{"id": "C75", "title": "Sparse matrices", "statement": "A matrix with sparse storage behaves, by its elements, as a matrix: as long as no zero is written and no more different elements are written than the table has items, reading any element gives the value last written to it (zero if none), for every history of reads and writes, however the elements collide; when the table is full all further elements are one and the same variable. If no two accessed elements have the same place (for instance if the table is as large as the matrix) this holds for zeros too. Otherwise setting an element to zero loses another one. No access is outside the table and no unwritten value is used.", "quantifier": "all table sizes, all numbers of columns, all histories of reads and writes, all values", "why_tests_cant": "unbounded histories; all collision patterns", "anchors": ["esp32-telescope-sync/lib/linalg/src/ElementStorage.h:Sparse"]}
{"id": "C76", "title": "Telescope object shared by two tasks", "statement": "The Bluetooth callback and loop() use one telescope object without a lock. However the two tasks are interleaved, access by access: while both only ask for positions and set orientations, no access fails and every position uses an azimuth and an altitude the telescope had and exactly the matrix the alignment prescribes for that point; if the alignment is also reset, the matrix is that of the reset alignment (identity) or one the alignment had before; if one task synchronises stars and resets while the other asks for positions and sets orientations, no access leaves the arrays, whatever unwritten matrices hold, and in the end the alignment is the one the calls produce one after the other. No more can be said: a position can combine a new azimuth with an old altitude; during the first synchronisation it can be computed with a matrix that was never written; a repeated synchronisation, which changes nothing, makes positions meanwhile uncalibrated; two simultaneous synchronisations can read the element before the array of triangles.", "quantifier": "all schedules, all sequences of calls of both tasks, all alignments reachable by any history, all contents of unwritten memory, all qsort implementations", "why_tests_cant": "the number of interleavings is unbounded; a test cannot choose the schedule", "anchors": ["esp32-telescope-sync/src/main.cpp:onBluetoothData", "esp32-telescope-sync/src/main.cpp:loop", "esp32-telescope-sync/src/main.cpp:mqttCallback", "esp32-telescope-sync/lib/telescope/src/telescope.cpp:addReferencePoint", "esp32-telescope-sync/lib/telescope/src/telescope.cpp:getCalibratedOrientation", "esp32-telescope-sync/lib/telescope/src/telescope.cpp:setOrientation", "esp32-telescope-sync/lib/alignment/src/alignment.cpp:addVertexPair", "esp32-telescope-sync/lib/alignment/src/alignment.cpp:TriangulateActual", "esp32-telescope-sync/lib/alignment/src/alignment.cpp:updateTransformationMatrices", "esp32-telescope-sync/lib/alignment/src/alignment.cpp:clearAll"]}
{"id": "C77", "title": "GNSS data shared by two tasks", "statement": "loop() parses the sentences of the receiver while the Bluetooth callback reads time and position, without a lock. Whenever it looks, every member has the value from before or from after the sentence being parsed. Whatever moments the single reads fall on and in whatever order: if the minute does not change while the data is parsed, the time reply is the one for the time of one of the sentences (or the time before), and positions and synchronisations use the sidereal time for the time of one sentence, the longitude of one and the latitude of one; if the position stays within one degree, the location reply is the one for the latitude and the longitude of sentences. No more can be said: at a full hour the time reply can be an hour off whichever way the arguments are evaluated, the sidereal time of a position or a synchronisation more than 15 degrees; at midnight the object itself is a day late for a moment; at a whole degree the location reply can be a degree off.", "quantifier": "all received data, all previous states, all moments and orders of the reads", "why_tests_cant": "the number of interleavings is unbounded; a test cannot choose the schedule", "anchors": ["esp32-telescope-sync/lib/gnss/src/gnss.cpp:fromRMC", "esp32-telescope-sync/lib/gnss/src/gnss.cpp:fromGGA", "esp32-telescope-sync/lib/gnss/src/gnss.cpp:fromGSV", "esp32-telescope-sync/lib/gnss/src/gnss.cpp:fromBuffer", "esp32-telescope-sync/lib/nexstar/src/nexstar.cpp:handleRequest", "esp32-telescope-sync/src/main.cpp:onBluetoothData", "esp32-telescope-sync/src/main.cpp:loop"]}
{"id": "C78", "title": "Two- and three-star alignment in double arithmetic", "statement": "With every floating-point operation rounded as IEEE 754 prescribes: inverting the matrix of the measured star positions, multiplying it with the reference positions and applying the result to a pointing direction never produces a non-number; with three stars (measured coordinates up to 360, reference coordinates up to 720 degrees, every height of the triangle at least h >= 0.001 degrees, the number behind the matrix at most 1 in magnitude) every reported direction is within 1/(10000 h^2) degrees of the image under the affine map given by the three pairs, with two stars at least d >= 0.01 degrees apart within 1/(200 d^2) degrees of the image under the similarity given by the two pairs, the azimuth up to full turns and in [0, 360] (up to one denormal number); in particular pointing at an alignment star reports its reference position. For other bounds S, R, S2 of the numbers involved the error is at most 3200 (1+S2) R S^2/h^2 (200000 (1+S2) R S^2/d^2) units of 2^-53. Heights matter: three stars nearly in a line can be degrees off.", "quantifier": "all double positions of the stars, all pointing directions, all pivot orders, all values behind the matrix", "why_tests_cant": "2^768 star positions; error amplification depends on the geometry", "anchors": ["esp32-telescope-sync/lib/alignment/src/alignment.cpp:updateTransformationMatrices", "esp32-telescope-sync/lib/alignment/src/alignment.cpp:getCalibratedOrientation", "esp32-telescope-sync/lib/linalg/src/NotSoBasicLinearAlgebra.h:LUDecompose", "esp32-telescope-sync/lib/linalg/src/NotSoBasicLinearAlgebra.h:LUSolve", "esp32-telescope-sync/lib/linalg/src/NotSoBasicLinearAlgebra.h:Invert", "esp32-telescope-sync/lib/linalg/src/BasicLinearAlgebra.h:operator*"]}
{"id": "C79", "title": "Aligned telescope in double arithmetic, all histories", "statement": "With every floating-point operation of conversion, sync, triangulation, matrix, choice of the matrix, calibration and conversion back rounded as IEEE 754 prescribes, and a C library accurate to one unit in the last place: after every history of orientations, syncs and resets the telescope knows exactly the stars synced since the last reset (none twice at the same orientation; the 64th discards all), and reads every direction. With one star the report is the position of the direction as far from the star as the telescope is from its orientation during the sync, up to 2^-42; with two (or more in a line) it is the image under the similarity given by the two stars of lowest azimuth, up to 1/(5000 d^2) for orientations d >= 0.01 degrees apart; otherwise the image under the affine map given by three known stars, up to 1/(250000 h^2) for a triangle with heights of at least h >= 0.001 degrees, and if the report says 'inside' the direction is in their triangle up to a tenth of a square degree. Pointing as during the sync of one of two or three stars reports its position, at any sidereal time, up to 1/(2000 d^2) or 1/(100000 h^2). A sync can fail only by more triangles or edges than the arrays have elements. But a direction well inside a large triangle can be classified as outside and read with the matrix of another triangle.", "quantifier": "all histories of calls, all orientations, all accurate C libraries, all answers of the geometric tests of the triangulation, all qsort implementations", "why_tests_cant": "unbounded histories; 2^128 orientations per star; accumulated rounding", "anchors": ["esp32-telescope-sync/lib/telescope/src/telescope.cpp:addReferencePoint", "esp32-telescope-sync/lib/telescope/src/telescope.cpp:getCalibratedOrientation", "esp32-telescope-sync/lib/telescope/src/telescope.cpp:setOrientation", "esp32-telescope-sync/lib/alignment/src/alignment.cpp:addVertexPair", "esp32-telescope-sync/lib/alignment/src/alignment.cpp:TriangulateActual", "esp32-telescope-sync/lib/alignment/src/alignment.cpp:getTransformationMatrix", "esp32-telescope-sync/lib/alignment/src/alignment.cpp:isInTriangle", "esp32-telescope-sync/lib/alignment/src/alignment.cpp:nearestTriangle"]}
{"id": "C80", "title": "Observing session in IEEE arithmetic, from bytes to bytes", "statement": "With all arithmetic rounded as IEEE 754 prescribes and a C library accurate to one unit in the last place: every sequence of sensor orientations, goto messages, NexStar requests and resets determines one list of known stars - one per valid goto message or sync request since the last reset, except at an orientation at which a star was already synced; the 64th discards all; nothing else adds a star. If it has one star, then with the telescope turned back to its orientation during the sync, at any valid later (or earlier) date and time at the same latitude, the position packet and the NexStar reply are well formed and carry numbers that stand for the hour angle and declination the star had during the sync, up to 2^-26 + 2^-40 rad (3 milliarcseconds); with two stars d >= 0.01 degrees apart, or three that form a triangle with heights of at least h >= 0.001 degrees (unless the triangulation finds no triangle), up to 1/(2000 d^2) + 2^-26 and 1/(100000 h^2) + 2^-26. (Where out-of-range conversions to unsigned are undefined, packet and reply may be undefined instead.)", "quantifier": "all sequences of events, all messages and requests (sync requests with hexadecimal digits), all valid dates within 355 years of 2000, all sites, all accurate C libraries, both formats of long double", "why_tests_cant": "unbounded histories; 2^64 positions per message; rounding accumulates from the message through sidereal time, conversion, matrices and conversion back to the reply", "anchors": ["esp32-telescope-sync/lib/telescope/src/telescope.cpp:addReferencePoint", "esp32-telescope-sync/lib/telescope/src/telescope.cpp:getCalibratedOrientation", "esp32-telescope-sync/lib/telescope/src/telescope.cpp:packPosition", "esp32-telescope-sync/lib/telescope/src/telescope.cpp:unpackPosition", "esp32-telescope-sync/lib/telescope/src/telescope.cpp:localSiderealTimeDegrees", "esp32-telescope-sync/lib/nexstar/src/nexstar.cpp:handleRequest", "esp32-telescope-sync/src/main.cpp:loop", "esp32-telescope-sync/src/main.cpp:onBluetoothData"]}
{"id": "C81", "title": "Torn numbers on a 32-bit processor", "statement": "The processor loads and stores a double in two 32-bit words, and the other task can run in between. However the two tasks are interleaved, word by word and with either word first: while both only ask for positions and set orientations (doubles, azimuth in [0, 360), altitude within 91 degrees), no access fails and every position is computed for an azimuth in [0, 360) within 2^-12 degrees (0.9 arc seconds) of one the telescope had and an altitude within 2^-14 degrees (0.3 arc seconds) of one it had, with exactly the matrix the alignment prescribes for that point; the guarantees for resets and for one synchronising task are those for accesses in one piece, for orientations whose words the telescope had. A read during one assignment of the same member delivers the old number, the new one or either mixture of their words - each is possible and nothing else, for every double of the object - and for the one-word members the old or the new number. In general a double with a foreign low word is within 2^-21 times the next larger power of two of the one it has the high word of, has its sign and does not leave a range with integer limits up to 2^20. The bound cannot be improved: turning from just below 256 to 256 degrees can show an azimuth almost 2^-12 degrees beyond both.", "quantifier": "all schedules of single words, all sequences of calls of both tasks, all reachable alignments, all doubles", "why_tests_cant": "the number of interleavings is unbounded; a test cannot choose the schedule", "anchors": ["esp32-telescope-sync/src/main.cpp:onBluetoothData", "esp32-telescope-sync/src/main.cpp:loop", "esp32-telescope-sync/lib/telescope/src/telescope.cpp:setOrientation", "esp32-telescope-sync/lib/telescope/src/telescope.cpp:addReferencePoint", "esp32-telescope-sync/lib/telescope/src/telescope.cpp:getCalibratedOrientation", "esp32-telescope-sync/lib/alignment/src/alignment.h:Alignment"]}
{"id": "C82", "title": "Triangulation in double arithmetic", "statement": "With every floating-point operation rounded as IEEE 754 prescribes and a C library accurate to one unit in the last place, whatever the indeterminate variables contain and whatever the program does with numbers that are not finite: up to 64 different double positions (coordinates at most 1000 in magnitude; two altitudes equal or at least 2e-6 degrees apart; some two positions at least 1e-5 degrees apart in azimuth or altitude; and for any three positions or supertriangle corners not in a line, and any further position, distance and radius of the circle through the three differ, squared, by more than 2^-40 times the squared steepness of the bisectors, their conditioning and the squared reach of the coordinates) are triangulated successfully, and the result is a Delaunay triangulation: clockwise triangles, no position inside the circle of a triangle, no two triangles overlap, no position in a foreign triangle, three positions that belong together form a triangle, at most 2n-4 triangles. Hence after every history of orientations, syncs and resets, a sync that leaves well-placed stars succeeds and leaves a Delaunay triangulation of the orientations; and if the heights of the triangles are at least h >= 1/3 degree, pointing as during the sync of a star that belongs to a triple is recognised as inside a triangle and reports the position of the star, up to 1/(100000 h^2), at any sidereal time - for any number of stars. From bytes to bytes: in every session a goto message or sync request that leaves well-placed stars does not fail, leaves a Delaunay triangulation, and afterwards position packet and NexStar reply for each star that belongs to a triple carry its place up to 1/(100000 h^2) + 2^-26 rad at every later time. No history and no session fails in which at every moment at most one star is known or the orientations of the known stars are well placed (provided the variables for centre and radius, which are read before they are set when there is one star, hold finite numbers); whatever event was the last, the same guarantees hold at its end.", "quantifier": "all lists of up to 64 well-placed positions, all histories of calls, all accurate C libraries, all contents of indeterminate variables, all qsort implementations", "why_tests_cant": "2^8192 lists of positions; rounding decides the combinatorial course of the insertion; unbounded histories", "anchors": ["esp32-telescope-sync/lib/alignment/src/alignment.cpp:CircumCircle", "esp32-telescope-sync/lib/alignment/src/alignment.cpp:TriangulateActual", "esp32-telescope-sync/lib/telescope/src/telescope.cpp:addReferencePoint", "esp32-telescope-sync/lib/telescope/src/telescope.cpp:getCalibratedOrientation"]}
{"id": "C83", "title": "Gyroscope functions", "statement": "With every floating-point operation rounded as IEEE 754 prescribes: a gyroscope sample is stored if and only if the array has room for its three components (otherwise memory behind the array is overwritten), and nothing else in the array changes; the mean of any number n of samples up to a million, of magnitude at most B and stored one after the other, is the mean of the samples up to (n + 3) B / 2^24 in each component; clipping the noise makes exactly the rates of at most 0.01 rad/s zero if abs is that of floating-point numbers, but all rates below 1 rad/s if it is that of integers, and keeps all others; calibration leaves every rate unchanged. The firmware never reads the gyroscope: the rates it logs are zero however long it runs.", "quantifier": "all arrays, all numbers of samples, all float samples, both overloads of abs, all running times", "why_tests_cant": "unbounded arrays and histories; all floats", "anchors": ["esp32-telescope-sync/lib/lsm6wrapper/src/lsm6wrapper.cpp:gyroSample", "esp32-telescope-sync/lib/lsm6wrapper/src/lsm6wrapper.cpp:meanVec3", "esp32-telescope-sync/lib/lsm6wrapper/src/lsm6wrapper.cpp:clipGyroNoise", "esp32-telescope-sync/lib/lsm6wrapper/src/lsm6wrapper.cpp:calibrate", "esp32-telescope-sync/lib/lsm6wrapper/src/lsm6wrapper.cpp:setCalibration", "esp32-telescope-sync/src/main.cpp:loop"]}
{"id": "C84", "title": "The whole firmware in IEEE arithmetic", "statement": "From power-up, with all arithmetic rounded as IEEE 754 prescribes: every history of loop() calls (sensor samples, bytes of the TCP client, of the GNSS receiver and of the MQTT server, any times), Bluetooth data and connections that does not fail means exactly one sequence of events for the telescope - in every run of the 100 ms task the orientation that is then published as heading and pitch, followed by the position the client's message or sync request tells and one reset per reset message; per Bluetooth sync request the position it tells - and leaves the telescope in the state that sequence leads to, whatever the connections, the receive buffer, the GNSS data and the other tasks do. Hence with a C library accurate to one unit in the last place, once the device is turned back to a star it was told about, the bytes it sends - the reply to e over Bluetooth, the reply to e over TCP, the position packet to a planetarium program (every e of a connected TCP client is answered once, to it; with a fix and outside NexStar mode every run of the 500 ms task sends one packet) - carry two 32-bit numbers that stand for that star at any later time: within 2^-26 + 2^-40 (3 milliarcseconds) if it is the only star, 1/(2000 d^2) + 2^-26 with two stars d degrees apart, 1/(100000 h^2) + 2^-26 for every star of a Delaunay triangle with any number of well-placed stars, triangles at least h degrees high.", "quantifier": "all configurations, all histories of events from power-up, all bytes received, all sensor samples, all accurate C libraries, all formats of long double and of atan2 for floats", "why_tests_cant": "unbounded histories; all interleavings of connections, tasks, messages and requests; rounding accumulates from sensor to wire", "anchors": ["esp32-telescope-sync/src/main.cpp:setup", "esp32-telescope-sync/src/main.cpp:loop", "esp32-telescope-sync/src/main.cpp:onBluetoothData", "esp32-telescope-sync/src/main.cpp:mqttCallback", "esp32-telescope-sync/src/main.cpp:checkForConnections", "esp32-telescope-sync/lib/telescope/src/telescope.cpp:addReferencePoint", "esp32-telescope-sync/lib/telescope/src/telescope.cpp:getCalibratedOrientation", "esp32-telescope-sync/lib/telescope/src/telescope.cpp:setOrientation", "esp32-telescope-sync/lib/telescope/src/telescope.cpp:packPosition", "esp32-telescope-sync/lib/telescope/src/telescope.cpp:unpackPosition", "esp32-telescope-sync/lib/nexstar/src/nexstar.cpp:handleRequest"]}
{"id": "C85", "title": "What can stop the firmware in IEEE arithmetic", "statement": "From power-up, with all arithmetic rounded as IEEE 754 prescribes and atan2 returning angles, whatever is received and measured (acceleration within the range of the sensor, 20 m/s^2): the firmware meets a number that is infinite or not a number, an access outside a buffer or an undefined conversion only (a) when fewer than eight bytes that are no command arrive over Bluetooth at the Arduino build, and then it is a read outside the buffer, (b) when the location is asked for and a coordinate is outside [0, 256), on hardware where such conversions are undefined, (c) when the position is asked for and its calculation fails, (d) when a sync or (e) a goto message that tells a position fails, (f) when the bytes of the GNSS receiver stop its parser, (g) in the 500 ms report with an orientation sensor configured, when the calculation of its numbers fails, when a position packet is due and a coordinate has no 32-bit number, when the text of a number, of a list of points or of the matrix is longer than the buffer, or when the text in the buffer does not end (local broker), or (h) in the 2 s report when the GNSS data make no sense or, with a broker, the text buffer is not terminated. Reading the sensors never fails, and always gives a heading in [0, 360). A sync or goto succeeds whenever the telescope knows at most one star, or the stars, this one included, are well placed as in C82. Turned back to a star it was told, the device answers the e of a connected TCP client, to it alone, with two 32-bit numbers that stand for that star, unless the conversion of a negative number is undefined on the hardware.", "quantifier": "all configurations, all histories of events from power-up, all bytes received, all samples within the range of the sensor, all C libraries whose atan2 returns angles (accurate ones for the last two sentences)", "why_tests_cant": "unbounded histories; a number that is not finite or an access out of bounds may need a rare combination of rounded values, timing and bytes", "anchors": ["esp32-telescope-sync/src/main.cpp:setup", "esp32-telescope-sync/src/main.cpp:loop", "esp32-telescope-sync/src/main.cpp:onBluetoothData", "esp32-telescope-sync/src/main.cpp:mqttCallback", "esp32-telescope-sync/src/main.cpp:checkForConnections", "esp32-telescope-sync/lib/telescope/src/telescope.cpp:addReferencePoint", "esp32-telescope-sync/lib/telescope/src/telescope.cpp:getCalibratedOrientation", "esp32-telescope-sync/lib/telescope/src/telescope.cpp:setOrientation", "esp32-telescope-sync/lib/telescope/src/telescope.cpp:packPosition", "esp32-telescope-sync/lib/telescope/src/telescope.cpp:unpackPosition", "esp32-telescope-sync/lib/nexstar/src/nexstar.cpp:handleRequest", "esp32-telescope-sync/lib/lsm6wrapper/src/lsm6wrapper.cpp:getMeanAcc", "esp32-telescope-sync/lib/lsm6wrapper/src/lsm6wrapper.cpp:accSample"]}
