#!/usr/bin/env python3
"""Writes /verif/MANIFEST.json. One entry per property: (id, status, theorems, note)."""
import json, os
C = []
def c(pid, status, thms, note=""):
    C.append({"property": pid, "status": status, "theorems": ["PyG2P." + t for t in thms.split()], "note": note})

c("C01", "proved", "C01_accumulation_value")
c("C02", "proved", "C02_accumulation_keys")
c("C03", "proved", "C03_accumulation_conserves")
c("C04", "partial", "C04_gap_filled_partial C04_gap_crash", "every successful run fills gaps linearly; the code can crash with IndexError although both neighbours exist (witness)")
c("C05", "partial", "C05_first_start_partial C05_weight_wrong C05_violated", "false of the code: the weight is evaluated at the interval end; exact behaviour proved, negation proved")
c("C06", "proved", "C06_start_zero C06_zero_base C06_force_zero_first_only")
c("C07", "partial", "C07_start_mask_kept_partial C07_mask_lost_accumulation C07_mask_lost_average C07_mask_lost_instantaneous", "only the mask of the interval start survives; the rest is violated (witnesses)")
c("C08", "proved", "C08_average_value C08_average_keys")
c("C09", "proved", "C09_average_bounds C09_average_constant C09_average_linear")
c("C10", "partial", "C10_average_start_zero_partial C10_violated C10_violated_crash", "false when end+1 is a multiple of the step")
c("C11", "proved", "C11_half_weights C11_trapezoid C11_too_few_steps_nan")
c("C12", "proved", "C12_instantaneous")
c("C13", "proved", "C13_refused C13_accumulation_never_refused")
c("C14", "partial", "C14_accumulation_fails C14_average_fails C14_average_succeeds C14_instantaneous_fails C14_instantaneous_succeeds C14_halfweights_silent", "half-weight averages silently use what is there (witness)")
c("C16", "partial", "aggregation_memory C16_average_local C16_half_local C16_instantaneous_local C16_accumulation_local C16_far_field_used", "That no field is altered is proved for the code with array objects and in-place additions. Locality is proved for averages, half-weight averages and instantaneous maps, and for accumulations with data at or before the start; before the first message the code extrapolates from the last one (witness).")
exec(open(os.path.join(os.path.dirname(__file__), "manifest_more.py")).read()) if os.path.exists(os.path.join(os.path.dirname(__file__), "manifest_more.py")) else None
C.sort(key=lambda d: d["property"])
json.dump({"claims": C}, open("/verif/MANIFEST.json", "w"), indent=1)
