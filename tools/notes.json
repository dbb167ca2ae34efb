{
 "C02": "False for the empty delimiter (infinite loop): refuted; holds for every non-empty delimiter.",
 "C05": "Malformed escapes are accepted by the code (refuted with witnesses); proved for all well-formed input and for a lone trailing %."
}
