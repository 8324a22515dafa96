STATUS = {
 'C01': ('proved', 'For every platform, argument and buffer; double is an exact ordered field.'),
 'C02': ('proved', 'Byte-exact layout, for the standard and the wrapping conversion; double is an exact ordered field.'),
 'C03': ('proved', 'Round trip in both directions; double is an exact ordered field.'),
 'C04': ('proved', 'Complete functional behaviour of unpackPosition; needs two readable bytes, shown necessary.'),
 'C05': ('proved', 'Exact domain of definedness; negative declinations are UB on the ESP32 (defect).'),
}
STATUS.update({
 'C23': ('proved', 'Exact arithmetic for all arguments; in IEEE double the bound r < n fails (kernel-checked witness, defect).'),
 'C24': ('proved', 'In the code\'s own float/double arithmetic (IEEE rounding modelled), for every date of the years 1..6765.'),
 'C25': ('proved', 'julianDay part in IEEE float, the remaining double/long double arithmetic exact.'),
 'C26': ('proved', 'All 32-bit words and all error patterns.'),
})
STATUS.update({
 'C14': ('proved', 'All payloads, platforms and corruptions; a corruption that introduces a new * is excluded (it moves the checksum).'),
 'C15': ('proved', 'All byte strings and states.'),
 'C16': ('proved', 'All well-formed sentences, IEEE binary32 rounding modelled; second may be one more when its fraction exceeds 0.99 (kernel-checked finding 23:59:60).'),
 'C17': ('proved', 'All byte strings; the hemisphere-flag contradiction is a kernel-checked finding.'),
 'C18': ('proved', 'All well-formed sentences, IEEE binary32 rounding modelled.'),
 'C19': ('proved', 'All well-formed sentences and states.'),
 'C20': ('proved', 'All line sequences, tails and leading fragments.'),
 'C21': ('proved', 'All byte strings; double processing / checksum bypass as kernel-checked finding.'),
 'C22': ('proved', 'Sufficient comma condition for all strings; out-of-bounds reads of short sentences and missing * as findings.'),
})
STATUS.update({
 'C06': ('proved', 'All request strings and states, for any telescope implementation.'),
 'C07': ('proved', 'All requests and buffer sizes; an 18-byte buffer truncates the position reply (kernel-checked).'),
 'C08': ('proved', 'All requests and memories; the Arduino log line over-reads short unknown commands (defect).'),
 'C09': ('proved', 'Any telescope implementation; double arithmetic exact; negative declinations are UB on the ESP32 (defect).'),
 'C10': ('proved', 'All 32-bit values in either letter case, any separator; -90 deg comes back as 270 and garbage digits are accepted (findings).'),
 'C12': ('proved', 'Float arithmetic with IEEE rounding; south/west positions are UB (defect).'),
 'C13': ('proved', 'All stored times; end-to-end corollary after a well-formed RMC sentence.'),
})
STATUS.update({
 'C38': ('proved', 'Exact ordered field arithmetic, for every stray value the out-of-bounds read delivers; singular matrices are accepted (finding).'),
})
STATUS.update({
 'C31': ('proved', 'All histories, all sorting implementations.'),
 'C32': ('proved', 'All histories; the 64th point keeps the triangles of the discarded points (finding).'),
 'C33': ('proved', 'All histories, all sorting implementations; the wrap base drifts (kernel-checked finding).'),
 'C34': ('proved', 'All histories with one accepted point, exact arithmetic.'),
 'C35': ('proved', 'All histories; exact arithmetic. That collinear points produce no triangle is part of C42.'),
 'C36': ('proved', 'All histories and queries; exact arithmetic.'),
 'C39': ('proved', 'All histories ending with a triangulation, all queries.'),
 'C40': ('proved', 'All states; behavioural equality with a new alignment for all later histories that succeed on a new one.'),
 'C41': ('proved', 'For arbitrary answers of the geometric tests, hence for any arithmetic.'),
 'C43': ('proved', 'All points; the comparison of indeterminate variables itself is reported as a defect.'),
 'C44': ('proved', 'All histories and queries, any rounding of the float distance.'),
 'C45': ('proved', 'Exact arithmetic for all triangles; binary32 rounding for areas up to 400; rejection of inside points as kernel-checked finding.'),
})
STATUS.update({
 'C28': ('proved', 'All real inputs; exact arithmetic.'),
 'C29': ('proved', 'All real inputs; exact arithmetic.'),
 'C30': ('proved', 'All real inputs; exact arithmetic.'),
})
STATUS.update({
 'C37': ('proved', 'All telescope histories; unconditional for one, two and three stars (with a triangle found), for more stars when the triangle used has the star as a corner; protocol round trip; re-sync, collinear and tolerance findings.'),
})
STATUS.update({
 'C46': ('proved', 'All call sequences and times, including the 32-bit wrap; starvation as finding.'),
 'C48': ('proved', 'All modes and times; missed single flash and wrap glitch as findings.'),
})
STATUS.update({
 'C27': ('proved', 'All encoder frames and states; binary32/binary64 rounding for the range, exact arithmetic for the contraction; wrap-around as finding.'),
 'C49': ('proved', 'All event sequences.'),
 'C54': ('proved', 'All data, file systems and crash points.'),
 'C55': ('proved', 'All sample histories, exact arithmetic.'),
 'C56': ('proved', 'All sample histories and angles, exact arithmetic.'),
})
STATUS.update({
 'C11': ('proved', 'All histories of the whole firmware (loop calls, Bluetooth requests, MQTT resets, connections).'),
 'C47': ('proved', 'All histories of the whole firmware; the timeout is about 10 s (finding).'),
 'C48': ('proved', 'All modes and times, and all firmware histories: the mode shown is the one chosen in the last 100 ms task; missed single flash and wrap glitch as findings.'),
 'C50': ('proved', 'All states and messages; stale receive buffer, failed read and LENGTH 74 as findings.'),
 'C51': ('proved', 'All histories of the whole firmware.'),
 'C52': ('proved', 'All messages; every handled reset empties the alignment.'),
})
STATUS.update({
 'C53': ('proved', 'All lists of finite coordinates; exact condition; 22 points always overflow, also in whole-firmware histories; trailing comma and stale bytes for the local broker as findings.'),
 'C57': ('proved', 'All histories of the whole firmware; values of the telescope are an exact ordered field; over-read for huge matrix elements as finding.'),
})
STATUS.update({
 'C35': ('proved', 'All histories; exact arithmetic. Two points, and any number of generic collinear points.'),
 'C37': ('proved', 'All telescope histories; unconditional for one and two stars, three stars with a triangle, and any number of stars in generic directions (exact arithmetic, hypotheses on the directions only); corner condition in general; protocol round trip; re-sync, collinear and tolerance findings.'),
 'C42': ('proved', 'All sets of up to 64 generic positions and all histories, exact arithmetic: success, empty circles, disjointness, count, completeness for moderate circles; dropped flat triple as finding.'),
})
STATUS.update({
 'C58': ('proved', 'All histories of the whole firmware with the telescope model (exact arithmetic).'),
})
STATUS.update({
 'C59': ('proved', 'All connections; numbers are IEEE binary64 with rounding.'),
 'C60': ('proved', 'All exact requests, all firmware states.'),
 'C61': ('proved', 'Real arithmetic.'),
 'C62': ('proved', 'All byte strings; numbers are IEEE binary64 with rounding; acceptance of a time by datetime.fromtimestamp is a parameter.'),
})
STATUS.update({
 'C63': ('proved', 'All histories of the whole firmware (exact arithmetic in the telescope; the circle test exact and its static variables set, as Normal says).'),
})
STATUS.update({
 'C64': ('proved', 'All histories of the whole firmware, any scheduling of the calls of loop(); exact arithmetic in the telescope, decimal rounding of the encoder as in the code.'),
})
STATUS.update({
 'C65': ('proved', 'All histories of the whole firmware (exact arithmetic in the telescope); the matrix text is covered for elements below 10^20, the temperature below 10^200.'),
})
STATUS.update({
 'C66': ('proved', 'IEEE binary64 rounding of every operation of the two codecs; the position and the sidereal time themselves are inputs here.'),
})
STATUS.update({
 'C67': ('proved', 'All answers of the hardware; pins, Serial2 and the encoder initialisation are not modelled.'),
 'C68': ('proved', 'Messages are not lost while the connection stands; the message size limit of PubSubClient is not modelled.'),
})
STATUS.update({
 'C69': ('proved', 'sin, cos, sqrt, atan2 are any functions accurate to one unit in the last place; the sign of zero is covered by allowing both angles.'),
})
STATUS.update({
 'C70': ('proved', 'Every operation rounded; the comparison polynomial is exact.'),
})
STATUS.update({
 'C71': ('proved', 'One star; without fused multiply-add or excess precision. With more stars the position is proved in exact arithmetic (C27-C29 and others).'),
})
STATUS.update({
 'C72': ('proved', 'Exact arithmetic; Norm up to the square root of its last line; sparse storage is in C75.'),
})
STATUS.update({
 'C73': ('proved', 'The overload of atan2 (float or double) is a parameter; the I2C driver is not modelled.'),
})
STATUS.update({
 'C74': ('proved', 'Sequentially consistent memory; the texts of the messages are computed before they are stored (races on the telescope object are in C76); lists of points that do not fit are in C53.'),
})
STATUS.update({
 'C75': ('proved', 'Element access only: the class has no const access, so no operator accepts a sparse matrix. int does not overflow.'),
})
STATUS.update({
 'C76': ('proved', 'Sequentially consistent memory, accesses to int and double members atomic; two synchronising tasks only by counterexample. A synchronisation is assumed not to fail when carried out in one step (C37, C44).'),
})
STATUS.update({
 'C77': ('proved', 'Sequentially consistent memory, accesses to int, float and bool members atomic. Sentences whose parsing is undefined behaviour (C22) are excluded.'),
})
STATUS.update({
 'C78': ('proved', 'Which of the matrices is used for a pointing direction is C35/C42 (exact arithmetic with rounded float variables), not part of this claim. The number behind the matrix that LUDecompose reads is assumed to be a finite double with the bound stated.'),
})
STATUS.update({
 'C79': ('proved', 'Orientations with azimuth up to 360 and altitude up to 91 degrees in magnitude; the number behind the matrix that LUDecompose reads is at most 1 in magnitude. With more than three stars the theorem does not say which triangle is used beyond what is stated (C42 in exact arithmetic). Histories in which the triangulation exceeds its arrays (C44) are excluded by the hypothesis that the run succeeds.'),
})
STATUS.update({
 'C80': ('proved', 'Sessions whose run succeeds (a sync can fail only by more triangles or edges than the arrays have elements, C44/C79). Sync requests whose fields are not hexadecimal digits are excluded (for non-hexadecimal fields the numbers are whatever strtoul reads). With more than three stars see C79.'),
})
STATUS.update({
 'C81': ('proved', 'Sequentially consistent memory, accesses to 32-bit words atomic, either word of a double first. The sign of zero is not represented. Arithmetic on the values read is exact as in C76.'),
})
STATUS.update({
 'C82': ('proved', 'Positions that are not well placed (three altitudes within 2e-6 degrees, four positions almost on a circle) are excluded: there the answers of the geometric tests are those of C44/C79 (arbitrary). The bound for the distance from a circle grows with the steepness and the conditioning of the bisectors.'),
})
STATUS.update({
 'C83': ('proved', 'The I2C driver is not modelled. Which abs is used depends on the headers and is a parameter. Signed zero is not represented.'),
})
STATUS.update({
 'C84': ('proved', 'The pitch a history reports is assumed to be at most 91 degrees, and the GNSS data valid when a position is told. A calculation that leaves the finite numbers ends the run (histories that fail are excluded here; C85 says which can). What printf makes of matrix elements that are not finite is arbitrary.')
})
STATUS.update({
 'C85': ('proved', 'A cause is necessary, not sufficient, for a stop. That calculations of the report (position, coordinates, matrix) succeed is not shown here; C85_syncs assumes the pitch at most 91 degrees, valid GNSS data and well-placed stars (as C82).')
})
