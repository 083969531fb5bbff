EXTRA={'C41':['Checksum.C38_fletcher16_partial']}
NA={}
PARTIAL={
'C37':'False of the code: LRC negates on every Write. Negation proved with a witness; exact condition for a split, single-write streaming and the exact result of any chunking proved.',
'C38':'False of the code: Write panics for most lengths above 5803 and overflows at 5803. Negations proved, with the exact panic condition and, for writes up to 5803 bytes, the exact condition for a wrong sum; correct for all histories of writes up to 5802 bytes.',
'C41':'False of the code for splits not at word boundaries. Negation proved; aligned histories proved; exact result of arbitrary chunking proved.',
'C08':'False of the code for some section sizes (the function panics). Negation proved with a witness, exact panic condition proved, exact output proved whenever it does not panic.',
'C09':'False of the code for some section sizes (the function panics). Negation proved with a witness, exact panic condition proved, exact output proved whenever it does not panic.',
'C14':'False for non-IPv4 addresses: networks with IPv6 addresses and the same mask are always reported equal. Negation proved; exact for IPv4 addresses; equivalence relation for all networks.',
'C15':'False when the address is in 16-byte form (LastIpv4 reads the first four of 16 bytes). Negation proved; exact for 4-byte addresses; exact panic condition.',
'C21':'False for end 255.255.255.255: AddRange never returns. Divergence proved for all trees and starts; for all other ends termination and exactness proved.',
'C23':'False for 16-byte masks, IPv6 networks and non-contiguous masks. Negations proved; exact for IPv4 networks with contiguous 4-byte masks; exact effect for any argument proved.',
'C58':'False of the code: such an argument adds 0.0.0.0. Negation proved in general (exact effect for every non-IPv4 argument).',
'C27':'False for Add64BE..Add512BE: b contributes its last N/8 bytes. Negation proved for every wide big-endian function with the exact behaviour; proved for all little-endian and the narrow big-endian functions.',
'C28':'False for Add16 and Add32: they panic on every too-short sum. Proved for all other functions.',
'C29':'False for the big-endian functions when both a and sum are longer than N/8. Negation proved for all widths; proved otherwise, for all overlaps; the exact bytes written outside sum[0:N/8] proved.',
'C30':'False when a is a shorter prefix of sum. Negations and exact behaviour proved; a=sum (and a=b=sum) proved.',
'C31':'False for Add16/Add32 with a too-short sum (panic instead of error). Proved for all other inputs.',
'C80':'False of the code: sum is overwritten with a first, so the result is 2a. Negations proved for both byte orders; exact result, and that it is right exactly when the operands were equal, proved.',
'C81':'False of the code: big-endian operands are padded in front. Negation proved; when one operand has full length, the documented result is left exactly when the other has full length or is zero.',
'C84':'False for FirstIpv4, which returns the slice of the network itself; negation and exact effect of a store proved. Proved for the others.',
'C85':'False before the first successful addition: ListCidr of the zero Tree panics. Negation proved; otherwise the simulation is proved for all sequences of calls.',
'C103':'False before the first successful addition, as C85: ListCidr of the zero Tree panics. Negation proved; otherwise proved for all uses of the tree; nil pointers and getValue proved.',
'C59':'False when characters of several bytes precede or follow the difference: character counts are used as byte offsets. Negation proved with a witness; exact when those characters are single bytes; exact report for all strings is C57_messages.',
'C62':'False for bytes above 127: the message has the UTF-8 encoding of the byte read as a code point. Negation proved for every such byte; exact for ASCII; exact text for all bytes and injectivity proved.',
'C64':'False for the empty table: the text ends in a dangling plus sign. Negation proved for every name; exact for all non-empty tables.',
'C61':'False for input that is not hexadecimal text: it counts as the empty message. Negation proved; exact for hexadecimal input; exact behaviour for any input and any hash object proved.',
}
NOTES={}
