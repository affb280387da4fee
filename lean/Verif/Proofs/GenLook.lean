/-!
# Lookahead tables

Written by tools/gen_look.py; they are checked in `Verif/Proofs/GenNets.lean`.
-/

namespace Rfc5322.Gen

/-- Token types that can come next, as bits, in states 0 to 127. -/
def look0 : List Nat := [
  2361183232638729584136, 2361183241434822606848, 17179869184, 2361183241434822606848, 648, 2361183241434822606848, 2361183241417642343780, 2361183241434822606848,
  2361183241434822344036, 2361183241434822606848, 131072, 2361183241434822606848, 131720, 2361183241434822606848, 2361183232572750689280, 2361183241434822606848,
  2361183232572750689280, 2361183241434822606848, 2361183232572750689280, 2361183241434822606848, 2361183241417642734948, 2361183241434822606848, 2361183241434822604132, 2361183241434822606848,
  4722366482869645211628, 2361183241434822606848, 2048, 2361183241434822606848, 2361183232572750823048, 2361183241434822606848, 175389309788257125000, 2361183241434822606848,
  175389309788223570568, 2361183241434822606848, 175389309788223438848, 2361183241434822606848, 33686152, 2361183241434822606848, 10251635311150891008, 2361183241434822606848,
  33686152, 2361183241434822606848, 33686152, 2361183241434822606848, 33686152, 2361183241434822606848, 33686152, 2361183241434822606848,
  38797312, 2361183241434822606848, 38193480327357268616, 2361183241434822606848, 2361183232573019258504, 2361183241434822606848, 2361183232573019258504, 2361183241434822606848,
  2361183232573019258504, 2361183241434822606848, 268567176, 2361183241434822606848, 2361183232572750823048, 2361183241434822606848, 4303355904, 2361183241434822606848,
  2361183232572750823048, 2361183241434822606848, 2361183232573021355656, 2361183241434822606848, 2361183232573021355656, 2361183241434822606848, 2361183232573021355656, 2361183241434822606848,
  2361183232572750823048, 2361183241434822606848, 2361183232572750823048, 2361183241434822606848, 33554432, 2361183241434822606848, 2361183232581340755592, 2361183241434822606848,
  8589934592, 2361183241434822606848, 2361183232578600041472, 2361183241434822606848, 8796093022564, 2361183241434822606848, 8796093022564, 2361183241434822606848,
  8796093022564, 2361183241434822606848, 17179869184, 2361183241434822606848, 520, 2361183241434822606848, 38193480327357267968, 2361183241434822606848,
  268567176, 2361183241434822606848, 4297196168, 2361183241434822606848, 4297196168, 2361183241434822606848, 2361183232573021355656, 2361183241434822606848,
  2361183232573021355656, 2361183241434822606848, 2228872, 2361183241434822606848, 2361183232572750823048, 2361183241434822606848, 2361183232572750689280, 2361183241434822606848,
  536870912, 2361183241434822606848, 2361183214995043382272, 2361183241434822606848, 2361183214995043382272, 2361183241434822606848, 2361183214995043382272, 2361183241434822606848,
  2361183214995043382272, 2361183241434822606848, 2361183215044396055552, 2361183241434822606848, 2361183215044396055552, 2361183241434822606848, 128, 2361183241434822606848]

/-- Token types that can come next, as bits, in states 128 to 255. -/
def look1 : List Nat := [
  520, 2361183241434822606848, 2361183232638729583616, 2361183241434822606848, 2361183206250450518016, 2361183241434822606848, 2361183232638729583616, 520,
  2361183232638729584136, 2361183241434822606848, 17179869184, 2361183232638729584136, 17179869184, 17179869184, 2361183241434822606848, 520,
  520, 648, 648, 128, 648, 128, 648, 520,
  520, 520, 2361183241434822607368, 2361183241434822607368, 2361183241434822606848, 520, 648, 2361183241434822606848,
  2361183206250450518016, 1024, 2048, 4096, 8192, 16384, 32768, 65536,
  524288, 1048576, 2097152, 4194304, 8388608, 16777216, 33554432, 67108864,
  134217728, 268435456, 536870912, 1073741824, 2147483648, 4294967296, 8589934592, 34359738368,
  68719476736, 137438953472, 274877906944, 549755813888, 1099511627776, 2199023255552, 4398046511104, 8796093022564,
  17592186044416, 2361183241417642343780, 2361183241434822606848, 2361183241417642343780, 17179869184, 131072, 2361183241434822344036, 2361183241434822606848,
  131072, 648, 2361183241434822344684, 2361183241434822344036, 2361183241434822344036, 2361183241434822344684, 2361183241434822606828, 2361183241434822606828,
  262792, 2361183241434822606828, 648, 262792, 262144, 262144, 2361183241434822606848, 648,
  131720, 131072, 131072, 131720, 2361183241434822738568, 2361183241434822738568, 2361183241434822607496, 648,
  2361183241434822607496, 2361183241434822606848, 648, 131720, 2361183241434822606848, 2361183206250450518016, 33554432, 1024,
  4096, 8192, 16384, 32768, 65536, 524288, 1048576, 4194304,
  16777216, 536870912, 2147483648, 68719476736, 137438953472, 274877906944, 549755813888, 1099511627776,
  2199023255552, 4398046511104, 17592186044416, 2361183232572750689280, 2361183241434822606848, 2361183232572750689280, 2361183232572750689280, 4722366474007573296128]

/-- Token types that can come next, as bits, in states 256 to 383. -/
def look2 : List Nat := [
  4722366474007573296128, 2361183241434822606848, 2361183232572750689280, 2361183232572750689280, 4722366474007581684736, 4722366474007581684736, 2361183241434830995456, 8388608,
  2361183232572750689280, 2361183232572750689280, 4722366474007581684736, 4722366474007581684736, 2361183241434830995456, 8388608, 2361183241434830995456, 2361183241434830995456,
  2361183241434830995456, 2361183241434830995456, 8388608, 2361183241434830995456, 2361183241434822606848, 2361183206250450518016, 1024, 4096,
  8192, 16384, 32768, 65536, 131072, 262144, 524288, 1048576,
  2097152, 4194304, 8388608, 16777216, 33554432, 67108864, 134217728, 268435456,
  536870912, 1073741824, 2147483648, 4294967296, 8589934592, 34359738368, 68719476736, 137438953472,
  274877906944, 549755813888, 1099511627776, 2199023255552, 4398046511104, 8796093022564, 17592186044416, 2361183241417642734948,
  2361183241434822606848, 2361183241417642734948, 17179869184, 2361183241434822604132, 2361183241434822606848, 648, 2361183241434822604780, 2361183241434822604132,
  2361183241434822604132, 2361183241434822604780, 4722366482869645211628, 4722366482869645211628, 2361183241434822606848, 4722366482869645211628, 2048, 2361183241434822606828,
  648, 2696, 2048, 2048, 2361183241434822606848, 131720, 537002632, 536870912,
  536870912, 131720, 2361183241435359609480, 2361183241435359609480, 537002632, 2361183241435359609480, 2361183241435359609480, 2361183241434822606848,
  131720, 2361183232572750821000, 2361183232572750689280, 2361183232572750689280, 131720, 2361183241434822738568, 2361183241434822606848, 131720,
  133768, 2048, 2048, 131720, 2361183241434822738568, 2361183241434822606848, 2361183232572750823048, 2361183241434822606848,
  175389309788223570568, 2097152, 33686152, 175389309788257125000, 33686152, 33686152, 10251635311150891008, 33686152,
  33686152, 67108864, 33686152, 67108864, 33686152, 38193480327424508553, 38193480327357399689, 38193480327357268616,
  38193480327357399689, 131721, 131720, 131721, 1, 1, 2361183241434822606848, 648]

/-- Token types that can come next, as bits, in states 384 to 511. -/
def look3 : List Nat := [
  175389309788223439496, 175389309788223438848, 175389309788223438848, 131720, 175389309788223570568, 175389309788223438848, 175389309788223438848, 131720,
  2361183241434822738568, 2361183241434822606848, 175389309788223570568, 2361183241434822606848, 144115188075855872, 576460752303423488, 288230376151711744, 18446744073709551616,
  36893488147419103232, 562949953421312, 147573952589676412928, 562949953421312, 281474976710656, 18446744073709551616, 4503599627370496, 36893488147419103232,
  1125899906842624, 4611686018427387904, 9007199254740992, 9223372036854775808, 35184372088832, 18446744073709551616, 9223372036854775808, 36893488147419103232,
  288230376151711744, 175389309788223438848, 2361183241434822606848, 648, 33555080, 33554432, 33554432, 33554432,
  33555080, 648, 648, 131720, 33686152, 33554432, 33554432, 33554432,
  2361183241434856293000, 2361183241434822738568, 131720, 2361183241434822738568, 2361183241434822606848, 33686152, 2361183241434822606848, 18014398509481984,
  35184372088832, 288230376151711744, 1125899906842624, 562949953421312, 70368744177664, 144115188075855872, 35184372088832, 4611686018427387904,
  35184372088832, 1152921504606846976, 4611686018427387904, 144115188075855872, 35184372088832, 590295810358705651712, 18014398509481984, 36893488147419103232,
  288230376151711744, 18014398509481984, 36893488147419103232, 72057594037927936, 35184372088832, 36893488147419103232, 2251799813685248, 9223372036854775808,
  562949953421312, 1152921504606846976, 576460752303423488, 140737488355328, 18446744073709551616, 288230376151711744, 576460752303423488, 73786976294838206464,
  281474976710656, 562949953421312, 140737488355328, 10251635311150891008, 2361183241434822606848, 648, 33554432, 33554432,
  33554432, 33554432, 648, 2361183241434822606848, 131720, 33686152, 33554432, 33554432,
  33554432, 131720, 2361183241434822738568, 2361183241434822606848, 33686152, 2361183241434822606848, 33554432, 33554432,
  33554432, 33554432, 131720, 33686152, 33554432, 33554432, 33554432, 33554432,
  33554432, 131720, 2361183241434822738568, 2361183241434822606848, 33686152, 2361183241434822606848, 33554432, 33554432]

/-- Token types that can come next, as bits, in states 512 to 639. -/
def look4 : List Nat := [
  131720, 33686152, 33554432, 33554432, 33554432, 131720, 2361183241434822738568, 2361183241434822606848,
  33686152, 2361183241434822606848, 33554432, 33554432, 131720, 33686152, 33554432, 33554432,
  33554432, 131720, 2361183241434822738568, 2361183241434822606848, 33686152, 2361183241434822606848, 5242880, 38797312,
  33554432, 33554432, 33554432, 33554432, 33554432, 2361183241434822606848, 648, 38797312,
  2361183241434822606848, 38193480327357267968, 38193480327357268616, 2361183241434822606848, 2361183232573019258504, 2361183232572750823048, 2361183232573019258504, 2361183241434822606848,
  2361183232573019258504, 2361183232572750823048, 2361183232573019258504, 2361183241434822606848, 2361183232572750823048, 2361183232573019258504, 268567176, 268567176,
  2361183241434822606848, 131720, 268567176, 268435456, 268435456, 2361183232572750823048, 2361183232573824564872, 1073741824,
  1073741824, 131720, 2361183241434822738568, 2361183241434822606848, 268567176, 268567176, 2361183241434822606848, 2048,
  2361183232572750823048, 2361183232572750823048, 2361183232572750823048, 67108864, 2361183232573021355656, 4722366474007978180232, 2361183241434956958344, 2048,
  2361183241434956958344, 2361183241434956956296, 134217728, 2361183241434956956296, 2361183241434822738568, 131720, 2361183241434822738568, 2361183241434822606848,
  4303355904, 2361183241434822606848, 2361183232572750823048, 2361183232572750823048, 4722366474007573429896, 4722366474007573429896, 2361183241434822606848, 2361183232572750823048,
  2361183232572750823048, 4303355904, 131720, 2361183232577054178952, 4722366474011876785800, 4722366474011876785800, 2361183241434822606848, 4722366474011876785800,
  2361183232572750823048, 2361183241434822606848, 2361183232573019258504, 2097152, 2361183232573019258504, 2097152, 2361183241434824704000, 2361183241434824704000,
  2361183241434822606848, 2361183241434824704000, 2361183232573021355656, 2361183232573021355656, 2361183241434822606848, 2361183232573019258504, 136314880, 2361183232573019258504,
  136314880, 136314881, 136314881, 1, 136314881, 1, 2361183241434822606848, 2361183232573021355656,
  1, 2361183241434822606848, 2361183232573021355656, 2361183241434822606848, 2361183232573021355656, 131720, 2228872, 2361183232573021355656]

/-- Token types that can come next, as bits, in states 640 to 767. -/
def look5 : List Nat := [
  2361183241434822606848, 2361183232572750823048, 4294967296, 2361183232581340755592, 67108864, 33554432, 2361183241434889715712, 2361183241434822606848,
  131720, 2361183232572750821000, 2361183232572750689280, 2361183232572750689280, 131720, 2361183241434822738568, 2361183241434822606848, 131720,
  133768, 2048, 2048, 131720, 2361183241434822738568, 2361183241434822606848, 2361183232572750823048, 2361183232572750823048,
  2361183241434822606848, 33554432, 33554432, 2361183241434856161280, 2361183241434856161280, 2361183241434822606848, 131720, 2361183232572750821000,
  2361183232572750689280, 2361183232572750689280, 131720, 2361183241434822738568, 2361183241434822606848, 131720, 8590066312, 8589934592,
  8589934592, 131720, 2361183241434822738568, 2361183241434822606848, 131720, 2361183232572750821000, 2361183232572750689280, 2361183232572750689280,
  131720, 2361183241434822738568, 2361183241434822606848, 2361183232581340755592, 2361183241434822606848, 8589934592, 648, 2361183232578600042120,
  2361183232578600041472, 2361183232578600041472, 2361183232578600042120, 2361183232612959780488, 2361183232612959780488, 34359739016, 2361183232612959780488, 648,
  34359739016, 34359738368, 34359738368, 2361183241434822606848, 2361183206250450518016, 1024, 2048, 4096,
  8192, 16384, 32768, 65536, 131072, 262144, 524288, 1048576,
  2097152, 4194304, 8388608, 16777216, 33554432, 67108864, 134217728, 268435456,
  536870912, 1073741824, 2147483648, 4294967296, 68719476736, 137438953472, 274877906944, 549755813888,
  1099511627776, 2199023255552, 4398046511104, 17592186044416, 2361183232578600041472, 2361183241434822606848, 8796093022564, 2361183241434822606848,
  8796093022564, 2361183241434822606848, 8796093022564, 2361183241434822606848, 17179869184, 2, 8796093022564, 16,
  128, 8796093022710, 2361183241434822606848, 520, 520, 648, 648, 128,
  128, 520, 520, 2361183241434822607368, 2361183241434822607368, 2361183241434822606848, 36893488147419103232, 18446744073709551616]

/-- Token types that can come next, as bits, in states 768 to 895. -/
def look6 : List Nat := [
  36893488147419103232, 18446744073709551616, 140737488355328, 2251799813685248, 144115188075855872, 18446744073709551616, 562949953421312, 9223372036854775808,
  18446744073709551616, 562949953421312, 281474976710656, 18446744073709551616, 140737488355328, 9223372036854775808, 18446744073709551616, 140737488355328,
  281474976710656, 18446744073709551616, 144115188075855872, 9223372036854775808, 18446744073709551616, 144115188075855872, 281474976710656, 18446744073709551616,
  1152921504606846976, 9223372036854775808, 18446744073709551616, 1152921504606846976, 281474976710656, 18446744073709551616, 38193480327357267968, 2361183241434822606848,
  131720, 268567176, 268435456, 268435456, 4297196168, 2361183232572750823048, 1073741824, 131720,
  2361183241434822738568, 2361183241434822606848, 4297196168, 67108864, 2361183241434822606848, 131720, 2097152, 2228872,
  4297196168, 4297196168, 4294967296, 4297196168, 4294967296, 2361183232581340755592, 2097152, 131720,
  2361183241439119803016, 2361183241439119671296, 4294967296, 2361183232581340755592, 2361183241439119671296, 2361183241434824704000, 2097152, 2361183241434824704000,
  2361183241434824704000, 2361183241434822606848, 2361183241434824704000, 131720, 2228872, 2097152, 2097152, 2228872,
  2361183232573021355656, 2361183232573021355656, 2361183232573019258504, 2361183232573021355656, 2361183232573019258504, 2097152, 2361183232573019258504, 131720,
  4722366474007843962504, 2361183241434824704000, 2097152, 2361183241434824704000, 2361183241434824704000, 2361183241434822606848, 2361183241434824704000, 131720,
  2228872, 2097152, 2097152, 2228872, 2361183232573021355656, 2361183232573021355656, 2361183232573019258504, 2361183232573021355656,
  2361183232573019258504, 2097152, 2361183232573019258504, 131720, 4722366474007843962504, 2361183241434824704000, 2097152, 2361183241434824704000,
  2361183241434824704000, 2361183241434822606848, 2361183241434824704000, 131720, 2228872, 2097152, 2097152, 2228872,
  2361183241434824835720, 2361183241434824835720, 2361183241434822738568, 131720, 2361183241434822738568, 2361183241434822606848, 2361183232572750823048, 8388608,
  2361183232572750823048, 8388608, 2361183241434830995456, 2361183241434830995456, 2361183241434822606848, 2361183241434830995456, 2361183232572750689280, 8388608]

/-- Token types that can come next, as bits, in states 896 to 1023. -/
def look7 : List Nat := [
  2361183232572750689280, 8388608, 2361183241434830995456, 2361183241434830995456, 2361183241434822606848, 2361183241434830995456, 536870912, 2147483648,
  2361183214995043382272, 2147483648, 2361183214995043382272, 2147483648, 2361183215044396055552, 2147483648, 536870912, 2361183241434822606848,
  2361183214995043382272, 2361183241434822606848, 2361183214995043382272, 2361183241434822606848, 2361183214995043382272, 2361183214995043382272, 4722366456429865989120, 4722366456429865989120,
  2361183241434822606848, 2361183206250450518016, 1024, 4096, 8192, 16384, 32768, 65536,
  524288, 1048576, 4194304, 33554432, 17179869184, 68719476736, 137438953472, 274877906944,
  549755813888, 1099511627776, 2199023255552, 4398046511104, 2361183214995043382272, 2361183241434822606848, 2361183215044396055552, 2361183215044396055552,
  4722366456479218662400, 4722366456479218662400, 2361183241434822606848, 2361183206250450518016, 1024, 2048, 4096, 8192,
  16384, 32768, 65536, 131072, 262144, 524288, 1048576, 2097152,
  4194304, 8388608, 16777216, 33554432, 67108864, 134217728, 268435456, 536870912,
  1073741824, 4294967296, 8589934592, 17179869184, 34359738368, 68719476736, 137438953472, 274877906944,
  549755813888, 1099511627776, 2199023255552, 4398046511104, 2361183215044396055552, 2361183241434822606848, 128, 16,
  2361183241434822606848, 520, 2361183241434822606848, 2361183206250450518016, 1024, 2048, 4096, 8192,
  16384, 32768, 65536, 131072, 262144, 524288, 1048576, 2097152,
  4194304, 8388608, 16777216, 33554432, 67108864, 134217728, 268435456, 536870912,
  1073741824, 2147483648, 4294967296, 8589934592, 17179869184, 34359738368, 68719476736, 137438953472,
  274877906944, 549755813888, 1099511627776, 2199023255552, 4398046511104, 17592186044416, 2361183232638729583616, 2361183241434822606848]

/-- Token types that can come next, as bits, in states 1024 to 1026. -/
def look8 : List Nat := [
  2361183206250450518016, 2361183241434822606848, 0]

/-- Token types that can come next, as bits, by state. -/
def lookTable : List (List Nat) := [look0, look1, look2, look3, look4, look5, look6, look7, look8]

/-- Token types that can come after a rule. -/
def followTable : List Nat := [
  2361183241434822606828, 2361183241434822606828, 2361183241434822606829, 2361183241434822606828, 2361183241434822606828, 2361183241434822606829, 2361183232587189714569, 2361183232578599779977,
  2361183232578599779977, 5572266633, 2361183241434822606828, 2361183241434822606828, 2696, 2361183232577389723272, 2361183232577389723272, 1,
  2097152, 2228872, 10251635311150891008, 33686152, 33686152, 67108864, 38193480327424508553, 38193480327357399689,
  131721, 131721, 136314881, 136448649, 136448649, 136448649, 136314881, 2361183232577389723272,
  335676040, 136448649, 1, 136448649, 1210190473, 4294967296, 1210190473, 1277299337,
  1277299337, 2361183232612959780488, 2361183241434822606828, 2361183241434822606828, 2361183241434822606828, 2361183241434822606828, 2361183241434822606829, 131721,
  136448649, 2361183232572750823048, 67108864, 136448649, 1, 136448649, 4294967296, 1277299337,
  2361183232577389723272, 2147483648, 2147483648, 2147483648, 2361183214997190865920, 2147483648, 2361183215046543539200, 520,
  2361183241434822606829, 2361183241434822606828, 2361183241434822606829]

end Rfc5322.Gen
