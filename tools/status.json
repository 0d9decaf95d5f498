{
 "C05": {"note": "c05_padding_not_btwoc is the counterexample for a library that pads."},
 "C06": {"note": "c06_fragment says exactly what happens to a URL with a fragment."},
 "C26": {"note": "c26_ipv6_broken, c26_host_not_idempotent, c26_host_changes, c26_port_appears, c26_fragment_not_idempotent and c26_empty_host show that the conditions of c26_idempotent and c26_authority are needed."}
}
