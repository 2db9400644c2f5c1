{
 "C08": {"extra": ["Poseidon.C02_hash_1", "Poseidon.C02_hash_2", "Poseidon.C02_hash_3", "Poseidon.C02_hash_4", "Poseidon.C02_hash_5", "Poseidon.C02_hash_6", "Poseidon.C02_hash_7"]},
 "C29": {"status": "partial", "note": "False of the code: C29_row_vector_panics proves that row_vector panics on every well-formed matrix with N_ROWS != 1 and columns; C29_row_vector_partial is what remains."},
 "C84": {"note": "The script reads logarithms as floats: theorems hold for every library accurate to 2^-40; those for the inverse exponent also need log(4,2) = 2, log(8,2) = 3 (table 9: log(16,2) = 4), and table 9 that a modulus smaller than the security level is not within 2^(n-20) of 2^n. Tables 7 and 8 allow one partial round less than printed in the paper where the modulus has no more bits than the security level. C84_one_fewer is the difference between generator and script."}
}
