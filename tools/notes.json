{
 "C01": "Weighted mean, order and choice of base record, for all histories, in exact arithmetic; C131 is the same with rounding.",
 "C02": "Acceptance condition and unchanged state, also over histories with caught failures.",
 "C04": "The code resets the multiple before checking the argument; counterexample and the part that holds.",
 "C06": "Exact for start times on the sample grid, within half a step otherwise; counterexample off the grid.",
 "C07": "trim with a positive start makes the delay positive; invariant proved for all other histories.",
 "C08": "Copies lose the multiple and refuse positive delays; counterexamples and the part that holds.",
 "C12": "allclose is neither symmetric nor transitive; counterexamples, characterisation and reflexivity."
}
