{"C13": {"status": "partial", "note": "All identities and ranges proved except |mcc|<=1, which holds only while the product of the four marginals stays below 2^63 (C13_mcc_partial); beyond that numpy int64 overflow makes the score None or larger than one (C13_mcc_none_overflow, C13_mcc_range_overflow)."}}
